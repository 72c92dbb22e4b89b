import Verif.Spec.HoleFile
import Verif.Lemmas.NearDouble
import Verif.Lemmas.RoundMeant
import Verif.Props.NearDouble

set_option linter.unusedSectionVars false
set_option linter.unusedVariables false
set_option linter.unusedSimpArgs false

/-! # A rim described by a file is a rim as computed -/

namespace S2P

section real
variable {B κ : ℝ}

theorem prod_shift {a b a' b' X Y d e : ℝ} (ha : |a| ≤ X) (hb' : |b'| ≤ Y) (hd : |a' - a| ≤ d) (he : |b' - b| ≤ e) (hX : 0 ≤ X) (hd0 : 0 ≤ d) :
    |a' * b' - a * b| ≤ d * Y + X * e := by
  have e1 : a' * b' - a * b = (a' - a) * b' + a * (b' - b) := by ring
  rw [e1]
  refine (abs_add_le _ _).trans ?_
  rw [abs_mul, abs_mul]
  exact add_le_add (mul_le_mul hd hb' (abs_nonneg _) hd0) (mul_le_mul ha he (abs_nonneg _) hX)

/-- both within `B`, and apart by at most `κ` -/
structure Moved1 (B κ : ℝ) (x x' : V2 ℝ) : Prop where
  ax : |x.x| ≤ B
  ay : |x.y| ≤ B
  bx : |x'.x| ≤ B
  by_ : |x'.y| ≤ B
  dx : |x'.x - x.x| ≤ κ
  dy : |x'.y - x.y| ≤ κ

theorem Moved1.refl {x : V2 ℝ} (hx : |x.x| ≤ B) (hy : |x.y| ≤ B) : Moved1 B 0 x x := ⟨hx, hy, hx, hy, by simp, by simp⟩

theorem gap_shift {a b a' b' κ' : ℝ} (h1 : |a| ≤ B) (h2 : |b| ≤ B) (h3 : |a'| ≤ B) (h4 : |b'| ≤ B) (h5 : |a' - a| ≤ κ) (h6 : |b' - b| ≤ κ') :
    |a - b| ≤ 2 * B ∧ |a' - b'| ≤ 2 * B ∧ |(a' - b') - (a - b)| ≤ κ + κ' := by
  rw [abs_le] at h1 h2 h3 h4 h5 h6
  refine ⟨?_, ?_, ?_⟩ <;> rw [abs_le] <;> constructor <;> linarith [h1.1, h1.2, h2.1, h2.2, h3.1, h3.2, h4.1, h4.2, h5.1, h5.2, h6.1, h6.2]

theorem dist2_shift {κ' : ℝ} {x x' y y' : V2 ℝ} (hx : Moved1 B κ x x') (hy : Moved1 B κ' y y') : |dist2 x' y' - dist2 x y| ≤ 8 * (B * (κ + κ')) := by
  have hB : 0 ≤ B := (abs_nonneg _).trans hx.ax
  have hκ : 0 ≤ κ := (abs_nonneg _).trans hx.dx
  have hκ' : 0 ≤ κ' := (abs_nonneg _).trans hy.dx
  obtain ⟨a1, a2, a3⟩ := gap_shift hx.ax hy.ax hx.bx hy.bx hx.dx hy.dx
  obtain ⟨b1, b2, b3⟩ := gap_shift hx.ay hy.ay hx.by_ hy.by_ hx.dy hy.dy
  have p := prod_shift a1 a2 a3 a3 (by linarith) (by linarith)
  have q := prod_shift b1 b2 b3 b3 (by linarith) (by linarith)
  have e : dist2 x' y' - dist2 x y = ((x'.x - y'.x) * (x'.x - y'.x) - (x.x - y.x) * (x.x - y.x)) + ((x'.y - y'.y) * (x'.y - y'.y) - (x.y - y.y) * (x.y - y.y)) := by
    unfold dist2; ring
  rw [e]
  refine (abs_add_le _ _).trans ((add_le_add p q).trans ?_)
  apply le_of_eq
  ring

theorem area_shift {x x' y y' z z' : V2 ℝ} (hx : Moved1 B κ x x') (hy : Moved1 B κ y y') (hz : Moved1 B κ z z') :
    |twiceArea x' y' z' - twiceArea x y z| ≤ 16 * (B * κ) := by
  have hB : 0 ≤ B := (abs_nonneg _).trans hx.ax
  have hκ : 0 ≤ κ := (abs_nonneg _).trans hx.dx
  obtain ⟨a1, a2, a3⟩ := gap_shift hy.ax hx.ax hy.bx hx.bx hy.dx hx.dx
  obtain ⟨b1, b2, b3⟩ := gap_shift hz.ay hx.ay hz.by_ hx.by_ hz.dy hx.dy
  obtain ⟨c1, c2, c3⟩ := gap_shift hy.ay hx.ay hy.by_ hx.by_ hy.dy hx.dy
  obtain ⟨d1, d2, d3⟩ := gap_shift hz.ax hx.ax hz.bx hx.bx hz.dx hx.dx
  have p := prod_shift a1 b2 a3 b3 (by linarith) (by linarith)
  have q := prod_shift c1 d2 c3 d3 (by linarith) (by linarith)
  have e : twiceArea x' y' z' - twiceArea x y z = ((y'.x - x'.x) * (z'.y - x'.y) - (y.x - x.x) * (z.y - x.y)) - ((y'.y - x'.y) * (z'.x - x'.x) - (y.y - x.y) * (z.x - x.x)) := by
    unfold twiceArea; ring
  rw [e]
  refine (abs_sub _ _).trans ((add_le_add p q).trans ?_)
  apply le_of_eq
  ring

end real

section
variable {R : Rounding}

theorem V2.toFl_val {x : V3 (Fl R)} {c : V3 ℝ} {κ : ℝ} (h : V3.NearTo x c κ) : x.xy = V2.toFl R x.val.xy := by
  obtain ⟨⟨a, ha, -⟩, ⟨b, hb, -⟩, ⟨e, he, -⟩⟩ := h
  obtain ⟨x1, x2, x3⟩ := x
  simp only at ha hb he
  subst ha hb he
  rfl

theorem order_le {x y : V3 (Fl R)} {c d : V3 ℝ} {κ κ' : ℝ} (hx : V3.NearTo x c κ) (hy : V3.NearTo y d κ') (h : order x y = true) : x.val.x ≤ y.val.x := by
  obtain ⟨⟨a, ha, -⟩, -, -⟩ := hx
  obtain ⟨⟨b, hb, -⟩, -, -⟩ := hy
  obtain ⟨x1, x2, x3⟩ := x
  obtain ⟨y1, y2, y3⟩ := y
  simp only at ha hb
  subst ha hb
  show a ≤ b
  unfold order at h
  by_cases e : a = b
  · exact e.le
  · have e1 : FP.eq (α := Fl R) (Ext.fin a : Ext ℝ) (Ext.fin b : Ext ℝ) = false := by
      show decide (a = b) = false
      exact decide_eq_false e
    simp only [e1, Bool.not_false, if_true] at h
    have h : decide (a < b) = true := h
    exact (of_decide_eq_true h).le

open Classical in
/-- the corners as computed show the circle -/
theorem rim_of_hole {κ δ : ℝ} {named : Prop} {r : M3 ℝ} {us : List (Tri ℝ)} {q : V3 ℝ} {m : V2 ℝ} {ρ : ℝ} {N : ℕ} {B A s : ℝ}
    (h : HoleSeen κ δ named r us q m ρ N B A s) (hκ : 0 ≤ κ) {Rel : V3 (Fl R) → V3 ℝ → Prop} {pts : List (V3 (Fl R))} (hnd : pts.Nodup)
    (hord : pts.Pairwise (fun a b => order a b = true))
    (may : ∀ x ∈ pts, ∃ c, MaySee δ r us c ∧ V3.NearTo x (c.mulM r) κ ∧ Rel x c)
    (must : ∀ c, MustSee δ r us c → ∃ x ∈ pts, V3.NearTo x (c.mulM r) κ ∧ Rel x c ∧ MaySee δ r us c)
    (same : ∀ x y c d, Rel x c → Rel y d → (c = d → x = y) ∧ (named → seenAt r c = seenAt r d → x.xy = y.xy))
    {T : V3 (Fl R)} (hT : V3.NearTo T (q.mulM r) κ) :
    ∃ t p0 ps, T.xy = V2.toFl R t ∧ pts.map V3.xy = (p0 :: ps).map (V2.toFl R) ∧ RimAt p0 ps t m ρ N B A (s + 4 * (B * κ)) := by
  obtain ⟨B1, B16, mx, my⟩ := h.size
  have hB : 0 ≤ B := by linarith
  have hBκ : 0 ≤ B * κ := mul_nonneg hB hκ
  have mv : ∀ {x : V3 (Fl R)} {c : V3 ℝ}, (c = q ∨ MaySee δ r us c) → V3.NearTo x (c.mulM r) κ → Moved1 B κ (seenAt r c) x.val.xy := by
    intro x c hc hx
    obtain ⟨n1, n2⟩ := h.near c hc
    obtain ⟨-, w1, w2, -⟩ := near_val3 hx
    have w1 : |x.val.x - (seenAt r c).x| ≤ κ := w1
    have w2 : |x.val.y - (seenAt r c).y| ≤ κ := w2
    refine ⟨by linarith, by linarith, ?_, ?_, w1, w2⟩
    · have : x.val.xy.x = (x.val.x - (seenAt r c).x) + (seenAt r c).x := by show x.val.x = _; ring
      rw [this]
      exact (abs_add_le _ _).trans (by linarith)
    · have : x.val.xy.y = (x.val.y - (seenAt r c).y) + (seenAt r c).y := by show x.val.y = _; ring
      rw [this]
      exact (abs_add_le _ _).trans (by linarith)
  have mT := mv (Or.inl rfl) hT
  have mm := Moved1.refl mx my
  obtain ⟨a, b, c, h3, hpw, hall⟩ := h.three
  have hs := h.slack
  have hρ2 : 0 < ρ ^ 2 := by have := h.rad.1; positivity
  -- the rim as computed and as described
  have on1 : ∀ {x : V3 (Fl R)} {c : V3 ℝ}, MaySee δ r us c → V3.NearTo x (c.mulM r) κ → OnRim m ρ s (seenAt r c) → OnRim m ρ (s + 4 * (B * κ)) x.val.xy := by
    intro x c hc hx ho
    have := dist2_shift (mv (Or.inr hc) hx) mm
    rw [add_zero] at this
    unfold OnRim at *
    rw [abs_le] at *
    constructor <;> linarith [this.1, this.2, ho.1, ho.2]
  have off1 : ∀ {x : V3 (Fl R)} {c : V3 ℝ}, MaySee δ r us c → V3.NearTo x (c.mulM r) κ → WellOff m ρ (seenAt r c) → OffRim m ρ x.val.xy := by
    intro x c hc hx ho
    have := dist2_shift (mv (Or.inr hc) hx) mm
    rw [add_zero, abs_le] at this
    rcases ho with ho | ho
    · left
      nlinarith [this.2, hs.1, hs.2]
    · right
      nlinarith [this.1, hs.1, hs.2]
  have on2 : ∀ {x : V3 (Fl R)} {c : V3 ℝ}, MaySee δ r us c → V3.NearTo x (c.mulM r) κ → OnRim m ρ (s + 4 * (B * κ)) x.val.xy → OnRim m ρ s (seenAt r c) := by
    intro x c hc hx ho
    rcases hall c hc with h0 | ⟨h0, -⟩
    · exact h0
    · exfalso
      unfold OnRim at ho
      rw [abs_le] at ho
      rcases off1 hc hx h0 with h1 | h1 <;> nlinarith [ho.1, ho.2, hs.1, hs.2]
  have far : ∀ {x y : V3 (Fl R)} {c d : V3 ℝ}, MaySee δ r us c → MaySee δ r us d → V3.NearTo x (c.mulM r) κ → V3.NearTo y (d.mulM r) κ →
      dist2 (seenAt r c) (seenAt r q) + B ^ 2 / 2 ^ 40 + 32 * (B * κ) ≤ dist2 (seenAt r d) (seenAt r q) →
      dist2 x.val.xy T.val.xy + B ^ 2 / 2 ^ 40 ≤ dist2 y.val.xy T.val.xy := by
    intro x y c d hc hd hx hy hle
    have e1 := dist2_shift (mv (Or.inr hc) hx) mT
    have e2 := dist2_shift (mv (Or.inr hd) hy) mT
    rw [abs_le] at e1 e2
    have e3 : 8 * (B * (κ + κ)) = 16 * (B * κ) := by ring
    rw [e3] at e1 e2
    linarith [e1.2, e2.1]
  -- the three corners
  have get : ∀ z ∈ [a, b, c], ∃ x ∈ pts, V3.NearTo x (z.mulM r) κ ∧ MaySee δ r us z := by
    intro z hz
    obtain ⟨x, hx, n, -, k⟩ := must z (h3 z hz).1
    exact ⟨x, hx, n, k⟩
  obtain ⟨a', ha', na, ma⟩ := get a (by simp)
  obtain ⟨b', hb', nb, mb⟩ := get b (by simp)
  obtain ⟨c', hc', nc, mc⟩ := get c (by simp)
  have key : ∀ x' ∈ [a', b', c'], x' ∈ pts ∧ ∃ z ∈ [a, b, c], V3.NearTo x' (z.mulM r) κ ∧ MaySee δ r us z := by
    intro x' hx'
    simp only [List.mem_cons, List.not_mem_nil, or_false] at hx'
    rcases hx' with rfl | rfl | rfl
    · exact ⟨ha', a, by simp, na, ma⟩
    · exact ⟨hb', b, by simp, nb, mb⟩
    · exact ⟨hc', c, by simp, nc, mc⟩
  cases hp : pts with
  | nil => rw [hp] at ha'; cases ha'
  | cons x0 xs =>
    have hx0 : x0 ∈ pts := by rw [hp]; simp
    obtain ⟨c0, mc0, nc0, -⟩ := may x0 hx0
    have hfirst : MayBeFirst κ δ r us c0 := by
      refine ⟨mc0, fun c' hc' => ?_⟩
      obtain ⟨y, hy, ny, -, -⟩ := must c' hc'
      have hle : x0.val.x ≤ y.val.x := by
        rw [hp] at hy hord
        rcases List.mem_cons.1 hy with rfl | hy
        · exact le_rfl
        · exact order_le nc0 ny ((List.pairwise_cons.1 hord).1 y hy)
      have e1 : |x0.val.x - (seenAt r c0).x| ≤ κ := (near_val3 nc0).2.1
      have e2 : |y.val.x - (seenAt r c').x| ≤ κ := (near_val3 ny).2.1
      rw [abs_le] at e1 e2
      linarith [e1.1, e2.2]
    have back : ∀ z, z ∈ x0.val.xy :: xs.map (fun x => x.val.xy) → ∃ x ∈ pts, x.val.xy = z := by
      intro z hz
      rw [← List.map_cons (f := fun x : V3 (Fl R) => x.val.xy), ← hp] at hz
      exact List.mem_map.1 hz
    have forth : ∀ x ∈ pts, x.val.xy ∈ x0.val.xy :: xs.map (fun x => x.val.xy) := by
      intro x hx
      rw [hp] at hx
      rw [← List.map_cons (f := fun x : V3 (Fl R) => x.val.xy)]
      exact List.mem_map_of_mem hx
    refine ⟨T.val.xy, x0.val.xy, xs.map (fun x => x.val.xy), V2.toFl_val hT, ?_, ?_⟩
    · rw [← List.map_cons (f := fun x : V3 (Fl R) => x.val.xy), ← hp, List.map_map]
      refine List.map_congr_left fun x hx => ?_
      obtain ⟨c, -, n, -⟩ := may x hx
      exact V2.toFl_val n
    refine ⟨⟨?_, h.few.1, h.few.2.1⟩, ⟨B1, B16, ?_⟩, h.rad, ⟨by linarith [hs.1], hs.2⟩, ⟨h.area.1, ?_⟩, h.cond, ?_, ?_⟩
    · -- how many
      obtain ⟨l, hl, hin⟩ := h.few.2.2
      refine le_trans ?_ hl
      unfold rimCount
      rw [← List.map_cons (f := fun x : V3 (Fl R) => x.val.xy), ← hp, List.filter_map, List.length_map]
      set P := pts.filter ((fun q => decide (OnRim m ρ (s + 4 * (B * κ)) q)) ∘ fun x : V3 (Fl R) => x.val.xy) with hP
      have hPm : ∀ x ∈ P, ∃ c, Rel x c ∧ c ∈ l := by
        intro x hx
        rw [hP, List.mem_filter] at hx
        obtain ⟨c, k1, k2, k3⟩ := may x hx.1
        exact ⟨c, k3, hin c k1 (on2 k1 k2 (of_decide_eq_true hx.2))⟩
      have hPn : P.Nodup := hnd.filter _
      have : Inhabited (V3 ℝ) := ⟨q⟩
      choose! f hf using hPm
      have hinj : (P.map f).Nodup := by
        refine List.Nodup.map_on ?_ hPn
        intro x hx y hy e
        exact (same x y _ _ (hf x hx).1 (hf y hy).1).1 e
      have := (List.subperm_of_subset hinj (fun z hz => by
        obtain ⟨x, hx, rfl⟩ := List.mem_map.1 hz
        exact (hf x hx).2 : P.map f ⊆ l)).length_le
      rwa [List.length_map] at this
    · intro z hz
      rcases List.mem_cons.1 hz with rfl | hz
      · exact ⟨mT.bx, mT.by_⟩
      rcases List.mem_cons.1 hz with rfl | hz
      · exact ⟨mx, my⟩
      obtain ⟨x, hx, rfl⟩ := back z hz
      obtain ⟨c, k1, k2, -⟩ := may x hx
      exact ⟨(mv (Or.inr k1) k2).bx, (mv (Or.inr k1) k2).by_⟩
    · intro x hx y hy z hz ox oy oz hxy hxz hyz
      obtain ⟨x, jx, rfl⟩ := back x hx
      obtain ⟨y, jy, rfl⟩ := back y hy
      obtain ⟨z, jz, rfl⟩ := back z hz
      obtain ⟨cx, x1, x2, x3⟩ := may x jx
      obtain ⟨cy, y1, y2, y3⟩ := may y jy
      obtain ⟨cz, z1, z2, z3⟩ := may z jz
      have ne : ∀ {x y : V3 (Fl R)} {c d : V3 ℝ}, V3.NearTo x (c.mulM r) κ → V3.NearTo y (d.mulM r) κ → Rel x c → Rel y d → x.val.xy ≠ y.val.xy →
          c ≠ d ∧ (named → seenAt r c ≠ seenAt r d) := by
        intro x y c d hx hy h1 h2 hne
        obtain ⟨s1, s2⟩ := same x y c d h1 h2
        refine ⟨fun e => hne (by rw [s1 e]), fun hn e => hne ?_⟩
        have := s2 hn e
        rw [V2.toFl_val hx, V2.toFl_val hy] at this
        have t1 := congrArg V2.x this
        have t2 := congrArg V2.y this
        simp only [V2.toFl] at t1 t2
        ext
        · exact Ext.fin.inj t1
        · exact Ext.fin.inj t2
      obtain ⟨n1, n1'⟩ := ne x2 y2 x3 y3 hxy
      obtain ⟨n2, n2'⟩ := ne x2 z2 x3 z3 hxz
      obtain ⟨n3, n3'⟩ := ne y2 z2 y3 z3 hyz
      have := h.area.2 cx cy cz x1 y1 z1 (on2 x1 x2 ox) (on2 y1 y2 oy) (on2 z1 z2 oz) n1 n2 n3 (fun hn => ⟨n1' hn, n2' hn, n3' hn⟩)
      have sh := area_shift (mv (Or.inr x1) x2) (mv (Or.inr y1) y2) (mv (Or.inr z1) z2)
      have := abs_sub_abs_le_abs_sub (twiceArea (seenAt r cx) (seenAt r cy) (seenAt r cz)) (twiceArea x.val.xy y.val.xy z.val.xy)
      rw [abs_sub_comm] at this
      linarith
    · intro z hz
      obtain ⟨x, hx, rfl⟩ := back z hz
      obtain ⟨c, k1, k2, -⟩ := may x hx
      have := h.away c k1
      have sh := dist2_shift (mv (Or.inr k1) k2) mT
      have e3 : 8 * (B * (κ + κ)) = 16 * (B * κ) := by ring
      rw [e3, abs_le] at sh
      linarith [sh.1]
    · refine ⟨a'.val.xy, b'.val.xy, c'.val.xy, ?_, ?_, ?_⟩
      · intro x hx
        rw [show [a'.val.xy, b'.val.xy, c'.val.xy] = [a', b', c'].map (fun x => x.val.xy) from rfl] at hx
        obtain ⟨x', hx', rfl⟩ := List.mem_map.1 hx
        obtain ⟨k1, z, hz, nz, mz⟩ := key x' hx'
        exact ⟨forth x' k1, on1 mz nz (h3 z hz).2.1, far mz mc0 nz nc0 ((h3 z hz).2.2 c0 hfirst)⟩
      · have pr : ∀ {x y : V3 (Fl R)} {c d : V3 ℝ}, MaySee δ r us c → MaySee δ r us d → V3.NearTo x (c.mulM r) κ → V3.NearTo y (d.mulM r) κ →
            (dist2 (seenAt r c) (seenAt r q) + 272 * (B * κ) ≤ 16 * dist2 (seenAt r c) (seenAt r d) ∧
              dist2 (seenAt r d) (seenAt r q) + 272 * (B * κ) ≤ 16 * dist2 (seenAt r c) (seenAt r d)) →
            dist2 x.val.xy T.val.xy ≤ 16 * dist2 x.val.xy y.val.xy ∧ dist2 y.val.xy T.val.xy ≤ 16 * dist2 x.val.xy y.val.xy := by
          intro x y c d hc hd hx hy hle
          have e1 := dist2_shift (mv (Or.inr hc) hx) mT
          have e2 := dist2_shift (mv (Or.inr hd) hy) mT
          have e4 := dist2_shift (mv (Or.inr hc) hx) (mv (Or.inr hd) hy)
          have e3 : 8 * (B * (κ + κ)) = 16 * (B * κ) := by ring
          rw [e3, abs_le] at e1 e2 e4
          constructor <;> linarith [e1.2, e2.2, e4.1, hle.1, hle.2]
        simp only [List.pairwise_cons, List.mem_cons, List.not_mem_nil, or_false, forall_eq_or_imp, forall_eq, List.Pairwise.nil, and_true, IsEmpty.forall_iff, implies_true] at hpw ⊢
        exact ⟨⟨pr ma mb na nb hpw.1.1, pr ma mc na nc hpw.1.2⟩, pr mb mc nb nc hpw.2⟩
      · intro z hz
        obtain ⟨x, hx, rfl⟩ := back z hz
        obtain ⟨cx, k1, k2, -⟩ := may x hx
        rcases hall cx k1 with h0 | ⟨h0, h1⟩
        · exact Or.inl (on1 k1 k2 h0)
        · refine Or.inr ⟨off1 k1 k2 h0, ?_⟩
          intro y hy
          rw [show [a'.val.xy, b'.val.xy, c'.val.xy] = [a', b', c'].map (fun x => x.val.xy) from rfl] at hy
          obtain ⟨y', hy', rfl⟩ := List.mem_map.1 hy
          obtain ⟨-, w, hw, nw, mw⟩ := key y' hy'
          exact far mw k1 nw k2 (h1 w hw)

/-! ## Views along an axis -/

/-- at most one of the three is not zero -/
def Lone (u v w : ℝ) : Prop := (v = 0 ∧ w = 0) ∨ (u = 0 ∧ w = 0) ∨ (u = 0 ∧ v = 0)

theorem mul_fin_zero {x z : Fl R} {a : ℝ} (hx : x = (Ext.fin a : Ext ℝ)) (hz : z = (Ext.fin 0 : Ext ℝ)) : x * z = z := by
  subst hx hz
  show R.fix (Ext.mul (.fin a) (.fin 0)) = _
  rw [show Ext.mul (.fin a) (.fin 0) = (.fin (a * 0) : Ext ℝ) from rfl, mul_zero, fix_zero]

theorem term_same {p p' U : Fl R} {a a' u : ℝ} (hp : ∃ x : ℝ, p = (Ext.fin x : Ext ℝ)) (hp' : ∃ x : ℝ, p' = (Ext.fin x : Ext ℝ)) (hU : U = (Ext.fin u : Ext ℝ))
    (h : a = a' → p = p') (hu : u = 0 ∨ a = a') : p * U = p' * U := by
  rcases hu with rfl | e
  · obtain ⟨x, hx⟩ := hp
    obtain ⟨y, hy⟩ := hp'
    rw [mul_fin_zero hx hU, mul_fin_zero hy hU]
  · rw [h e]

/-- a coordinate in such a view depends on one coordinate only -/
theorem lone_same {p p' : V3 (Fl R)} {a a' : V3 ℝ} {b b' : V3 ℝ} {ε ε' u v w : ℝ} {U V W : Fl R} (hp : V3.NearTo p b ε) (hp' : V3.NearTo p' b' ε')
    (hU : U = (Ext.fin u : Ext ℝ)) (hV : V = (Ext.fin v : Ext ℝ)) (hW : W = (Ext.fin w : Ext ℝ)) (hx : a.x = a'.x → p.x = p'.x)
    (hy : a.y = a'.y → p.y = p'.y) (hz : a.z = a'.z → p.z = p'.z) (hl : Lone u v w) (e : a.x * u + a.y * v + a.z * w = a'.x * u + a'.y * v + a'.z * w) :
    p.x * U + p.y * V + p.z * W = p'.x * U + p'.y * V + p'.z * W := by
  obtain ⟨⟨x, h1, -⟩, ⟨y, h2, -⟩, ⟨z, h3, -⟩⟩ := hp
  obtain ⟨⟨x', h1', -⟩, ⟨y', h2', -⟩, ⟨z', h3', -⟩⟩ := hp'
  have can : ∀ {s t k : ℝ}, s * k = t * k → k = 0 ∨ s = t := by
    intro s t k h
    by_cases hk : k = 0
    · exact Or.inl hk
    · exact Or.inr (mul_right_cancel₀ hk h)
  have k1 : u = 0 ∨ a.x = a'.x := by
    rcases hl with ⟨rfl, rfl⟩ | ⟨rfl, rfl⟩ | ⟨rfl, rfl⟩
    · exact can (by linarith)
    · exact Or.inl rfl
    · exact Or.inl rfl
  have k2 : v = 0 ∨ a.y = a'.y := by
    rcases hl with ⟨rfl, rfl⟩ | ⟨rfl, rfl⟩ | ⟨rfl, rfl⟩
    · exact Or.inl rfl
    · exact can (by linarith)
    · exact Or.inl rfl
  have k3 : w = 0 ∨ a.z = a'.z := by
    rcases hl with ⟨rfl, rfl⟩ | ⟨rfl, rfl⟩ | ⟨rfl, rfl⟩
    · exact Or.inl rfl
    · exact Or.inl rfl
    · exact can (by linarith)
  rw [term_same ⟨x, h1⟩ ⟨x', h1'⟩ hU hx k1, term_same ⟨y, h2⟩ ⟨y', h2'⟩ hV hy k2, term_same ⟨z, h3⟩ ⟨z', h3'⟩ hW hz k3]

theorem matrix_lone {n : Str} {r : M3 ℝ} (h : getMatrixByName (α := Ext ℝ) n = some r.fin) : Lone r.r0.x r.r1.x r.r2.x ∧ Lone r.r0.y r.r1.y r.r2.y := by
  obtain ⟨⟨a1, a2, a3⟩, ⟨b1, b2, b3⟩, ⟨c1, c2, c3⟩⟩ := r
  unfold getMatrixByName at h
  split_ifs at h <;>
  · have h := Option.some.inj h
    simp only [matXP, matXN, matYP, matYN, matZP, matZN, ptX, ptY, ptZ, M3.fin, M3.map, V3.fin, V3.map, Ext.lit_eq, show ∀ v : V3 (Ext ℝ), -v = ⟨-v.x, -v.y, -v.z⟩ from fun _ => rfl, Ext.fin_neg, M3.mk.injEq, V3.mk.injEq, Ext.fin.injEq, Rat.cast_zero, Rat.cast_one, neg_zero] at h
    obtain ⟨⟨rfl, rfl, rfl⟩, ⟨rfl, rfl, rfl⟩, ⟨rfl, rfl, rfl⟩⟩ := h
    simp [Lone]

theorem named_lone {mV : Option (Meta (Ext ℝ))} (hn : ∀ m l, mV = some m → m.val ≠ .loc l) {r : M3 ℝ} (h : viewOf mV = .ok r.fin) :
    Lone r.r0.x r.r1.x r.r2.x ∧ Lone r.r0.y r.r1.y r.r2.y := by
  cases mV with
  | none =>
    refine matrix_lone (n := c!"Z+") ?_
    have : (matZP : M3 (Ext ℝ)) = r.fin := Except.ok.inj h
    rw [← this]
    rfl
  | some m =>
    obtain ⟨nm, v, ln⟩ := m
    cases v with
    | loc l => exact absurd rfl (hn _ l rfl)
    | str n =>
      unfold viewOf at h
      simp only at h
      cases hg : getMatrixByName (α := Ext ℝ) n with
      | none => rw [hg] at h; cases h
      | some q =>
        rw [hg] at h
        have : q = r.fin := Except.ok.inj h
        exact matrix_lone (hg.trans (by rw [this]))
    | pt p => cases h
    | num p => cases h
    | scale a b => cases h

/-! ## In a drawing -/

/-- the point `x` of the view is what the program has for the corner `c` -/
def Stands (rot : M3 (Fl R)) (x : V3 (Fl R)) (c : V3 ℝ) : Prop := ∃ p q, ReadAs p q ∧ q.real = c ∧ (∃ b, V3.NearTo p b 0) ∧ x = p.mulM rot

theorem real_coord {x y : ℚ} (h : (x : ℝ) = (y : ℝ)) : x = y := by exact_mod_cast h

theorem read_same {x y : ℚ} {p p' : Fl R} (hp : FP.ofDec64 x = some p) (hp' : FP.ofDec64 y = some p') (h : (x : ℝ) = (y : ℝ)) : p = p' := by
  rw [real_coord h, hp'] at hp
  exact (Option.some.inj hp).symm

theorem stands_same {ms : List (Meta (Fl R))} {rot : M3 (Fl R)} {r : M3 ℝ} (hr : AskedView ms r) (hrot : NamedView ms → rot = r.fin) (x y : V3 (Fl R)) (c d : V3 ℝ)
    (hx : Stands rot x c) (hy : Stands rot y d) : (c = d → x = y) ∧ (NamedView ms → seenAt r c = seenAt r d → x.xy = y.xy) := by
  obtain ⟨p, q, rp, rfl, ⟨b, hb⟩, rfl⟩ := hx
  obtain ⟨p', q', rp', rfl, ⟨b', hb'⟩, rfl⟩ := hy
  constructor
  · intro e
    have : p = p' := by
      ext1
      · exact read_same rp.1 rp'.1 (congrArg V3.x e)
      · exact read_same rp.2.1 rp'.2.1 (congrArg V3.y e)
      · exact read_same rp.2.2 rp'.2.2 (congrArg V3.z e)
    rw [this]
  · intro hn e
    have hrot := hrot hn
    obtain ⟨l1, l2⟩ := named_lone (mV := look (α := Ext ℝ) ms c!"view") hn hr
    have ex : q.real.x * r.r0.x + q.real.y * r.r1.x + q.real.z * r.r2.x = q'.real.x * r.r0.x + q'.real.y * r.r1.x + q'.real.z * r.r2.x := congrArg V2.x e
    have ey : q.real.x * r.r0.y + q.real.y * r.r1.y + q.real.z * r.r2.y = q'.real.x * r.r0.y + q'.real.y * r.r1.y + q'.real.z * r.r2.y := congrArg V2.y e
    ext1
    · exact lone_same hb hb' (by rw [hrot]; rfl) (by rw [hrot]; rfl) (by rw [hrot]; rfl) (read_same rp.1 rp'.1) (read_same rp.2.1 rp'.2.1) (read_same rp.2.2 rp'.2.2) l1 ex
    · exact lone_same hb hb' (by rw [hrot]; rfl) (by rw [hrot]; rfl) (by rw [hrot]; rfl) (read_same rp.1 rp'.1) (read_same rp.2.1 rp'.2.1) (read_same rp.2.2 rp'.2.2) l2 ey

variable (hR : R.Accurate)
include hR

/-- the corners as computed show the circle too -/
theorem hole_rim {E : Env (Fl R)} {stl : Models (Fl R)} {n : ℕ} (hn : n ≤ 40) {name : Str} {ms : List (Meta (Fl R))} {sc rot loc file proj ls r kept k p off}
    (F : Framed E stl n name ms sc rot loc file proj ls r kept k p off) {us : List (Tri ℝ)} (hu : List.Forall₂ (Stored (2 ^ n)) file.facets us)
    {η : ℝ} (hη : Fine η) (hm : M3.NearTo rot r η) {q : V3 ℝ} (hq : q.Within (2 ^ n))
    {m : V2 ℝ} {ρ : ℝ} {N : ℕ} {B A s : ℝ} (hB : B ≤ 2 ^ n) (hs : HoleSeen (10 * (2 ^ n * η)) (1 / 2 ^ 20) (NamedView ms) r us q m ρ N B A s) :
    ∃ t p0 ps, (V3.mulM (α := Fl R) (q.fin : V3 (Ext ℝ)) rot).xy = V2.toFl R t ∧ proj.points.map V3.xy = (p0 :: ps).map (V2.toFl R) ∧
      RimAt p0 ps t m ρ N B A (s + 4 * (B * (10 * (2 ^ n * η)))) := by
  have h1 : (1 : ℝ) ≤ 2 ^ n := one_le_pow₀ (by norm_num)
  have hW : Wide ((2 : ℝ) ^ n) := ⟨le_trans (by norm_num) h1, pow_le_pow_right₀ (by norm_num) (by omega)⟩
  have hη0 : 0 ≤ η := le_trans (by positivity) hη.lo
  have hκ : 0 ≤ 10 * ((2 : ℝ) ^ n * η) := by positivity
  have hr := F.rotation
  have nq := mulM_near' (R := R) hR hW hη (v := (q.fin : V3 (Ext ℝ))) ⟨Fl.near_fin _, Fl.near_fin _, Fl.near_fin _⟩ hq hm hr
  have nq' : V3.NearTo (V3.mulM (α := Fl R) (q.fin : V3 (Ext ℝ)) rot) (q.mulM r) (10 * (2 ^ n * η)) := near_mono3 nq (by nlinarith)
  have hrot : NamedView ms → rot = r.fin := by
    intro hnv
    obtain ⟨r', e1, -, e3⟩ := view_named_eq hR _ hnv rot F.drawn.view
    obtain rfl := askedView_unique (show AskedView ms r' from e1) F.asked
    exact e3
  obtain ⟨vp1, vp2⟩ := view_points hR hn F hu
  have hok : ∀ g ∈ proj.facets, g.e0.Ok ∧ g.e1.Ok ∧ g.e2.Ok := by
    intro g hg
    rw [F.perm.mem_iff, List.mem_map] at hg
    obtain ⟨f, hf, rfl⟩ := hg
    have ok : ∀ p ∈ f.corners, (p.mulM rot).Ok := fun p hp => near_ok3 (F.corners f hf p hp).1
    exact ⟨ok f.e0 (by simp [Facet.corners]), ok f.e1 (by simp [Facet.corners]), ok f.e2 (by simp [Facet.corners])⟩
  obtain ⟨-, -, hord⟩ := C18_points proj hok
  have stand : ∀ f ∈ file.facets, ∀ t, Stored (2 ^ n) f t → ∀ p ∈ f.corners, ∀ a, (p, a) ∈ pairs f t →
      V3.NearTo (p.mulM rot) (a.mulM r) (10 * (2 ^ n * η)) ∧ Stands rot (p.mulM rot) a := by
    intro f hf t hst p hp a hz
    refine ⟨(stored_turned hR hn hη hr hm (F.bd f hf) hst hp hz).2.1, ?_⟩
    obtain ⟨⟨qq, k1, k2⟩, -⟩ := hst.corners _ hz
    exact ⟨p, qq, k1, k2, ⟨p.val, (bd_val (by omega) (F.bd f hf p hp)).1⟩, rfl⟩
  have may : ∀ x ∈ proj.points, ∃ c, MaySee (1 / 2 ^ 20) r us c ∧ V3.NearTo x (c.mulM r) (10 * (2 ^ n * η)) ∧ Stands rot x c := by
    intro x hx
    obtain ⟨f, hf, t, ht, hst, hz, p, hp, a, ha, hpa, rfl⟩ := vp1 x hx
    obtain ⟨k1, k2⟩ := stand f hf t hst p hp a hpa
    exact ⟨a, ⟨t, ht, hz, ha⟩, k1, k2⟩
  have hnd : proj.points.Nodup := by
    refine hord.imp_of_mem ?_
    rintro x y hx hy hxy rfl
    obtain ⟨c, -, hc, -⟩ := may x hx
    obtain ⟨⟨a1, e1, -⟩, ⟨a2, e2, -⟩, ⟨a3, e3, -⟩⟩ := hc
    obtain ⟨x1, x2, x3⟩ := x
    simp only at e1 e2 e3
    subst e1 e2 e3
    simp only [order] at hxy
    have t1 : ∀ z : ℝ, FP.eq (α := Fl R) (Ext.fin z : Ext ℝ) (Ext.fin z : Ext ℝ) = true := fun z => decide_eq_true rfl
    have t2 : ∀ z : ℝ, FP.lt (α := Fl R) (Ext.fin z : Ext ℝ) (Ext.fin z : Ext ℝ) = false := fun z => decide_eq_false (lt_irrefl z)
    simp [t1, t2] at hxy
  have must : ∀ c, MustSee (1 / 2 ^ 20) r us c → ∃ x ∈ proj.points, V3.NearTo x (c.mulM r) (10 * (2 ^ n * η)) ∧ Stands rot x c ∧ MaySee (1 / 2 ^ 20) r us c := by
    intro c hc
    obtain ⟨f, hf, t, hst, p, hp, hz, hin⟩ := vp2 c hc
    obtain ⟨k1, k2⟩ := stand f hf t hst p hp c hz
    obtain ⟨t', g1, g2, g3⟩ := hc
    exact ⟨_, hin, k1, k2, t', g1, lt_trans (by norm_num) g2, g3⟩
  exact rim_of_hole hs hκ hnd hord may must (stands_same F.asked hrot) nq'

theorem hole_asks {E : Env (Fl R)} {stl : Models (Fl R)} {n : ℕ} (hn : n ≤ 40) {name : Str} {ms : List (Meta (Fl R))} {sc rot loc file proj ls r kept k p off}
    (F : Framed E stl n name ms sc rot loc file proj ls r kept k p off) {us : List (Tri ℝ)} (hu : List.Forall₂ (Stored (2 ^ n)) file.facets us)
    {η : ℝ} (hη : Fine η) (hm : M3.NearTo rot r η) {d : DimN (Fl R)} {g : Fl R → Str} {a u q : V3 ℝ} (h : HoleAsks E r d g a u q (2 ^ n))
    {m : V2 ℝ} {ρ : ℝ} {N : ℕ} {B A s : ℝ} (hB : B ≤ 2 ^ n) (hs : HoleSeen (10 * (2 ^ n * η)) (1 / 2 ^ 20) (NamedView ms) r us q m ρ N B A s) :
    RoundAsks E rot r proj.cull.points d g a u m ρ N B A (s + 4 * (B * (10 * (2 ^ n * η)))) (2 ^ n) := by
  have written : ∀ {nm : Str} {w : V3 ℝ}, Literal (K := ℝ) d.metas nm w → WrittenPt (α := Fl R) d.metas nm (w.fin : V3 (Ext ℝ)) := by
    rintro nm w ⟨mm, l, e1, e2⟩
    have e3 : mm.name = nm := by simpa using List.find?_some e1
    obtain ⟨x1, x2, x3⟩ := mm
    simp only at e2 e3
    subst e2 e3
    exact ⟨l, x3, e1⟩
  obtain ⟨t, p0, ps, e1, e2, hrim⟩ := hole_rim hR hn F hu hη hm h.within.2 hB hs
  refine ⟨⟨h.kind, h.good, ⟨_, written h.at_⟩, ⟨_, written h.dir⟩, h.fmt, _, t, p0, ps, written h.center, e1, ?_, hrim⟩, h.at_, h.dir, ⟨h.within.1, hB⟩, h.largest, h.square⟩
  rw [F.culled]
  exact e2

end
end S2P
