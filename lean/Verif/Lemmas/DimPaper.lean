import Verif.Spec.DimPaper
import Verif.Lemmas.ArcPaper
import Verif.Props.HoleFile

set_option linter.unusedSectionVars false
set_option linter.unusedVariables false
set_option linter.unusedSimpArgs false

/-! # Lemmas for C89 -/

namespace S2P
open PS

/-- two points apart along a direction square to the line of sight give a direction on the page -/
theorem pageDir_exists {r : M3 ℝ} (hr : IsRotation r) {u f t : V3 ℝ} (hz : (u.mulM r).z = 0) (h : 0 < shown u f t) : ∃ e, PageDir r u f t e := by
  have hu : len3 u ≠ 0 := by
    intro h0
    rw [shown, h0, div_zero] at h
    exact lt_irrefl _ h
  have hu0 : 0 < len3 u := lt_of_le_of_ne (Real.sqrt_nonneg _) hu.symm
  have hd : (t - f).dot u ≠ 0 := by
    intro h0
    rw [shown, h0, abs_zero, zero_div] at h
    exact lt_irrefl _ h
  have hl : (u.mulM r).x ^ 2 + (u.mulM r).y ^ 2 = len3 u ^ 2 := by
    have h1 := len3_mul_self (u.mulM r)
    rw [rot_len hr] at h1
    simp only [V3.sqNorm, V3.dot, hz] at h1
    nlinarith
  have hdot : ((t.mulM r).x - (f.mulM r).x) * (u.mulM r).x + ((t.mulM r).y - (f.mulM r).y) * (u.mulM r).y = (t - f).dot u := by
    rw [← rot_dot hr, rot_sub]
    simp only [V3.dot, V3.sub_x, V3.sub_y, V3.sub_z, hz]
    ring
  set s : ℝ := if 0 < (t - f).dot u then 1 else -1 with hs
  have hs2 : s * s = 1 := by rw [hs]; split_ifs <;> norm_num
  have hs0 : 0 < s * (t - f).dot u := by
    rw [hs]
    split_ifs with h'
    · linarith
    · have := lt_of_le_of_ne (not_lt.1 h') hd
      linarith
  have e1 : s / len3 u * (len3 u * s) = 1 := by field_simp; rw [pow_two]; exact hs2
  refine ⟨⟨(u.mulM r).x * (s / len3 u), (u.mulM r).y * (s / len3 u)⟩, ?_, ⟨len3 u * s, ?_⟩, ?_⟩
  · show (u.mulM r).x * (s / len3 u) * ((u.mulM r).x * (s / len3 u)) + (u.mulM r).y * (s / len3 u) * ((u.mulM r).y * (s / len3 u)) = 1
    calc _ = ((u.mulM r).x ^ 2 + (u.mulM r).y ^ 2) * (s * s) / len3 u ^ 2 := by field_simp
      _ = 1 := by rw [hl, hs2, mul_one]; exact div_self (pow_ne_zero _ hu)
  · have e2 : (s / len3 u) * (len3 u * s) = 1 := e1
    have ex : ∀ y : ℝ, y * (s / len3 u) * (len3 u * s) = y := fun y => by rw [mul_assoc, e2, mul_one]
    ext
    · show (u.mulM r).x = (u.mulM r).x * (s / len3 u) * (len3 u * s); rw [ex]
    · show (u.mulM r).y = (u.mulM r).y * (s / len3 u) * (len3 u * s); rw [ex]
  · show 0 < ((t.mulM r).x - (f.mulM r).x) * ((u.mulM r).x * (s / len3 u)) + ((t.mulM r).y - (f.mulM r).y) * ((u.mulM r).y * (s / len3 u))
    have : ((t.mulM r).x - (f.mulM r).x) * ((u.mulM r).x * (s / len3 u)) + ((t.mulM r).y - (f.mulM r).y) * ((u.mulM r).y * (s / len3 u)) =
        (s * (t - f).dot u) / len3 u := by rw [← hdot]; ring
    rw [this]
    exact div_pos hs0 hu0

theorem paints_centred (F : Fonts) (x : PsText (Ext ℝ)) (m : Mark) (h : PaintsText F x m) (hc : x.center = true) (hr : x.raw = false) :
    ∃ q : V2 ℚ, Six x.at_.x q.x ∧ Six x.at_.y q.y ∧
      m = .text ⟨q.x - (F.width c!"Courier" 8 (eol x.str)).x / 2, q.y - (F.bbox c!"Courier").2.2.2 * 8 / 3200⟩ (eol x.str) c!"Courier" 8 := by
  obtain ⟨qx, qy, s1, s2, rfl⟩ := h
  obtain ⟨a, s, c, r⟩ := x
  simp only at hc hr
  subst hc hr
  exact ⟨⟨qx, qy⟩, s1, s2, rfl⟩

theorem paints_sign (F : Fonts) (x : PsText (Ext ℝ)) (m : Mark) (h : PaintsText F x m) (hc : x.center = true) (hr : x.raw = true) :
    ∃ q : V2 ℚ, Six x.at_.x q.x ∧ Six x.at_.y q.y ∧
      m = .text ⟨q.x - (F.width c!"Courier" 8 (Char.ofNat 233 :: x.str.drop 4)).x / 2, q.y - (F.bbox c!"Courier").2.2.2 * 8 / 3200⟩ (Char.ofNat 233 :: x.str.drop 4)
        c!"Courier" 8 := by
  obtain ⟨qx, qy, s1, s2, rfl⟩ := h
  obtain ⟨a, s, c, r⟩ := x
  simp only at hc hr
  subst hc hr
  exact ⟨⟨qx, qy⟩, s1, s2, rfl⟩

section
variable {R : Rounding}

/-- what a part of the page puts on paper -/
def PutsDown (F : Fonts) (b : OutPage (Fl R)) (pb : List Mark × List (List Elem) × List (List Elem)) : Prop :=
  List.Forall₂ (PaintsText (K := ℝ) F) b.text pb.1 ∧ List.Forall₂ (fun a path => PaintsArc (arcExt a) (.stroke path)) b.arcs pb.2.1 ∧
    List.Forall₂ (fun l path => PaintsLine (K := ℝ) l (.stroke path)) b.lines pb.2.2

/-- all numbers on the page are finite, and raw texts are harmless -/
def FinPage (b : OutPage (Fl R)) : Prop :=
  (∀ a ∈ b.arcs, ArcFin a) ∧ (∀ l ∈ b.lines, ∃ a c ε, V2.NearTo l.o a ε ∧ V2.NearTo l.t c ε) ∧ (∀ x ∈ b.text, (∃ a ε, V2.NearTo x.at_ a ε) ∧ (x.raw = true → ∃ u, Plain u ∧ x.str = c!"\\351" ++ u))

theorem blocks_split (F : Fonts) : ∀ (bs : List (OutPage (Fl R))) (Mt Ma Ml : List (List Mark)),
    List.Forall₂ (List.Forall₂ (PaintsText (K := ℝ) F)) (bs.map (fun b => b.text)) Mt →
    List.Forall₂ (List.Forall₂ (fun a m => PaintsArc (arcExt a) m)) (bs.map (fun b => b.arcs)) Ma →
    List.Forall₂ (List.Forall₂ (PaintsLine (K := ℝ))) (bs.map (fun b => b.lines)) Ml →
    ∃ pbs : List (List Mark × List (List Elem) × List (List Elem)), Mt = pbs.map (fun b => b.1) ∧ Ma = pbs.map (fun b => b.2.1.map Mark.stroke) ∧
      Ml = pbs.map (fun b => b.2.2.map Mark.stroke) ∧ List.Forall₂ (PutsDown F) bs pbs
  | [], Mt, Ma, Ml, h1, h2, h3 => by
    cases h1; cases h2; cases h3
    exact ⟨[], rfl, rfl, rfl, .nil⟩
  | b :: bs, Mt, Ma, Ml, h1, h2, h3 => by
    cases h1 with
    | cons a1 a2 =>
      cases h2 with
      | cons b1 b2 =>
        cases h3 with
        | cons c1 c2 =>
          obtain ⟨pbs, rfl, rfl, rfl, h⟩ := blocks_split F bs _ _ _ a2 b2 c2
          obtain ⟨ink, rfl, hi⟩ := stroke_paths (R := R) _ _ c1
          obtain ⟨arcs, rfl, hi'⟩ := arc_paths _ _ b1
          exact ⟨⟨_, arcs, ink⟩ :: pbs, rfl, rfl, rfl, .cons ⟨a1, hi', hi⟩ h⟩

theorem strokes_paper {ε : ℝ} : ∀ (ls : List (Line (Fl R))) (ink : List (List Elem)) (ss : List (Line ℝ)),
    List.Forall₂ (fun l path => PaintsLine (K := ℝ) l (.stroke path)) ls ink →
    List.Forall₂ (StrokeNear ε) ls ss → List.Forall₂ (fun path (m : Line ℝ) => LineNear path m.o m.t ε) ink ss := by
  intro ls
  induction ls with
  | nil => intro ink ss h h'; cases h; cases h'; exact .nil
  | cons l ls ih =>
    intro ink ss h h'
    cases h with
    | cons u1 u2 =>
      cases h' with
      | cons v1 v2 => exact .cons (line_near v1.1 v1.2 u1) (ih _ _ u2 v2)

/-- a dimension on paper -/
theorem dim_paper (F : Fonts) {E : Env (Fl R)} {M η : ℝ} {r : M3 ℝ} (hr : IsRotation r) (hM : 0 < M) {us : List (Tri ℝ)} {k : ℝ} {p off : V2 ℝ} {d : DimN (Fl R)} {u : V3 ℝ}
    {g : Fl R → Str} {b : OutPage (Fl R)} (h : DimDone M η r us k p off d u g b) (hd : MeasuredDim E M η r us d u g) :
    FinPage b ∧ ∀ pb, PutsDown F b pb → DimPaper F M η r us k p off d u g pb.1 pb.2.1 pb.2.2 := by
  obtain ⟨h0, a, f, t, ma, mf, mt, q, x, h1, h2, h3, h4⟩ := h
  have hl := hd.long f t mf mt
  obtain ⟨e, he⟩ := pageDir_exists hr hd.square (lt_of_lt_of_le (by positivity) hl)
  obtain ⟨G, g1, fits, σf, σt, g2, g3, g4, g5, g6⟩ := h4 hl e he
  refine ⟨⟨by rw [h0]; simp, ?_, ?_⟩, ?_⟩
  · intro l hl'
    obtain ⟨m, -, hm⟩ := forall₂_mem g6 hl'
    exact ⟨_, _, _, hm.1, hm.2⟩
  · intro y hy
    rw [h1, List.mem_singleton] at hy
    subst hy
    exact ⟨⟨_, _, h3⟩, by simp⟩
  · rintro ⟨texts, arcs, ink⟩ ⟨k1, k0, k2⟩
    rw [h1] at k1
    rw [h0] at k0
    cases k0
    cases k1 with
    | @cons _ lab _ _ k1 k1' =>
      cases k1'
      obtain ⟨q', s1, s2, rfl⟩ := paints_centred F _ _ k1 rfl rfl
      exact ⟨rfl, a, f, t, ma, mf, mt, _, x, e, G, rfl, ⟨q', ⟨printed h3.1 s1, printed h3.2 s2⟩, rfl⟩, h2, he, g1, fits, σf, σt, g2, g3, g4, g5,
        strokes_paper _ _ _ k2 g6⟩

/-- the strokes and the arc of an angle on paper -/
theorem angle_ink_paper (hR : R.Accurate) {ε δ : ℝ} {x p q a b : V2 ℝ} {L : ℝ} {P : OutPage (Fl R)} (h : AngleInk ε δ x p q a b L P) :
    (∀ c ∈ P.arcs, ArcFin c) ∧ (∀ l ∈ P.lines, ∃ a c ε, V2.NearTo l.o a ε ∧ V2.NearTo l.t c ε) ∧ ∀ arcs ink,
      List.Forall₂ (fun a path => PaintsArc (arcExt a) (.stroke path)) P.arcs arcs →
      List.Forall₂ (fun l path => PaintsLine (K := ℝ) l (.stroke path)) P.lines ink → PathsAngle ε δ x p q a b L arcs ink := by
  obtain ⟨h1, c, h2, h3⟩ := h
  obtain ⟨f, h4⟩ := arc_path hR h3
  refine ⟨?_, ?_, ?_⟩
  · intro c' hc
    rw [h2, List.mem_singleton] at hc
    subst hc; exact f
  · intro l hl
    obtain ⟨m, -, hm⟩ := forall₂_mem h1 hl
    exact ⟨_, _, _, hm.1, hm.2⟩
  · intro arcs ink k1 k2
    rw [h2] at k1
    cases k1 with
    | cons k1 k3 =>
      cases k3
      exact ⟨strokes_paper _ _ _ k2 h1, _, rfl, h4 _ k1⟩

theorem leg_ne {ms : List (Meta (Fl R))} {dn pn : Str} {x u : V3 ℝ} {K : ℝ} (h : LegSays ms dn pn x u K) : u ≠ ⟨0, 0, 0⟩ := by
  rintro rfl
  obtain ⟨U, ⟨-, -, -, h4, h5, -⟩, -⟩ := h
  simp only [abs_zero, or_self] at h4
  rw [← h4] at h5
  norm_num at h5

/-- an angle on paper -/
theorem angle_paper (hR : R.Accurate) (F : Fonts) {E : Env (Fl R)} {M η : ℝ} (hη : 0 < η) {r : M3 ℝ} (hr : IsRotation r) {k : ℝ} {p off : V2 ℝ} {d : DimN (Fl R)}
    {a x u w f t : V3 ℝ} {g : Fl R → Str} {K : ℝ} {b : OutPage (Fl R)} (h : AngleDone M η K r k p off a x u w f t g b)
    (hd : MeasuredAngle E M η r d a x u w f t g K) :
    FinPage b ∧ ∀ pb, PutsDown F b pb → AnglePaper F M η K r k p off a x u w f t g pb.1 pb.2.1 pb.2.2 := by
  obtain ⟨⟨q, y, h1, h2, h3⟩, h4⟩ := h
  have hK := hd.asks.given.size
  have hs2 : 0 < Real.sin (angleBetween u w) ^ 2 := lt_of_lt_of_le (by positivity) hd.wide
  have hne : u.mulM r ≠ ⟨0, 0, 0⟩ ∧ w.mulM r ≠ ⟨0, 0, 0⟩ :=
    ⟨rot_ne hr (leg_ne hd.asks.given.from_), rot_ne hr (leg_ne hd.asks.given.to_)⟩
  obtain ⟨e, he⟩ := legDir_exists hne.1 hd.asks.square.1
  obtain ⟨e', he'⟩ := legDir_exists hne.2 hd.asks.square.2
  have hsin := sin_legs hr he he' hd.asks.square.1 hd.asks.square.2
  have text : ∀ pb : List Mark, List.Forall₂ (PaintsText (K := ℝ) F) b.text pb → ∃ label y, pb = [label] ∧ CentredAt F label (g y ++ c!" deg") (onPage r k off a) (inkError M k p) ∧
      Fl.Near y (angleBetween u w * 180 / Real.pi) (2 ^ 18 * (K * η) / Real.sin (angleBetween u w)) := by
    intro pb k1
    rw [h1] at k1
    cases k1 with
    | @cons _ lab _ _ k1 k1' =>
      cases k1'
      obtain ⟨q', s1, s2, rfl⟩ := paints_centred F _ _ k1 rfl rfl
      exact ⟨_, y, rfl, ⟨q', ⟨printed h3.1 s1, printed h3.2 s2⟩, rfl⟩, h2⟩
  have textFin : ∀ x ∈ b.text, (∃ a ε, V2.NearTo x.at_ a ε) ∧ (x.raw = true → ∃ u, Plain u ∧ x.str = c!"\\351" ++ u) := by
    intro z hz
    rw [h1, List.mem_singleton] at hz
    subst hz
    exact ⟨⟨_, _, h3⟩, by simp⟩
  rcases lt_trichotomy (e.x * e'.y - e.y * e'.x) 0 with hl | h0 | hl
  · have hl' : 0 < e'.x * e.y - e'.y * e.x := by linarith
    obtain ⟨a1, a2, a3⟩ := angle_ink_paper hR ((h4 e e' he he').2 hl')
    exact ⟨⟨a1, a2, textFin⟩, fun pb hb => ⟨text _ hb.1, e, e', he, he', Or.inr ⟨hl', a3 _ _ hb.2.1 hb.2.2⟩⟩⟩
  · rw [h0, abs_zero] at hsin
    rw [hsin] at hs2
    norm_num at hs2
  · obtain ⟨a1, a2, a3⟩ := angle_ink_paper hR ((h4 e e' he he').1 hl)
    exact ⟨⟨a1, a2, textFin⟩, fun pb hb => ⟨text _ hb.1, e, e', he, he', Or.inl ⟨hl, a3 _ _ hb.2.1 hb.2.2⟩⟩⟩

theorem round_ink_paper {strokes : V2 ℝ → V2 ℝ → V2 ℝ → ℝ → ℝ → List (Line ℝ)} {M k η ζ : ℝ} {o c s e : V2 ℝ} {L : ℝ} {lines : List (Line (Fl R))}
    (h : RoundInk strokes M k η ζ o c s e L lines) : (∀ l ∈ lines, ∃ a c ε, V2.NearTo l.o a ε ∧ V2.NearTo l.t c ε) ∧
      ∀ ink, List.Forall₂ (fun l path => PaintsLine (K := ℝ) l (.stroke path)) lines ink → PathsRound strokes M k η ζ o c s e L ink := by
  obtain ⟨m, h1, h2, h3⟩ := h
  refine ⟨?_, fun ink hi => ⟨m, h1, h2, strokes_paper _ _ _ hi h3⟩⟩
  intro l hl
  obtain ⟨m, -, hm⟩ := forall₂_mem h3 hl
  exact ⟨_, _, _, hm.1, hm.2⟩

/-- a radius or diameter on paper -/
theorem round_paper (F : Fonts) {E : Env (Fl R)} {M η : ℝ} {named : Prop} {r : M3 ℝ} (hr : IsRotation r) {us : List (Tri ℝ)} {k : ℝ} {off : V2 ℝ} {d : DimN (Fl R)}
    {g : Fl R → Str} {a u q : V3 ℝ} {m : V2 ℝ} {ρ : ℝ} {N : ℕ} {B A s : ℝ} {b : OutPage (Fl R)}
    (h : RoundDone M η r k off d g a u m ρ N B A (s + 4 * (B * (10 * (M * η)))) b)
    (hd : MeasuredRound E M η named r us d g a u q m ρ N B A s) :
    FinPage b ∧ ∀ pb, PutsDown F b pb → RoundPaper F M η r k off d g a u m ρ N B A (s + 4 * (B * (10 * (M * η)))) pb.1 pb.2.1 pb.2.2 := by
  obtain ⟨h0, hdia, hrad⟩ := h
  have hu : u ≠ ⟨0, 0, 0⟩ := by
    rintro rfl
    obtain ⟨U, -, -, -, h4, h5, -⟩ := hd.asks.largest
    simp only [abs_zero, or_self] at h4
    rw [← h4] at h5
    norm_num at h5
  obtain ⟨e, he⟩ := legDir_exists (rot_ne hr hu) hd.asks.square
  have hρ := hd.seen.rad.1
  have hc := hd.seen.cond
  have short : ∀ (z : Fl R) (x c : ℝ), ρ ≤ x → x ≤ 2 * ρ → c ≤ 17 → 0 ≤ c → Fl.Near z x (c * B * rimErr N B A (s + 4 * (B * (10 * (M * η)))) / ρ) → (g z).length ≤ 100 := by
    rintro z x c h1 h2 h3 h3' ⟨y, rfl, hy⟩
    have h4 : c * B * rimErr N B A (s + 4 * (B * (10 * (M * η)))) / ρ ≤ ρ / 10 := by
      rw [div_le_iff₀ hρ]
      have : c * (2000 * B * rimErr N B A (s + 4 * (B * (10 * (M * η))))) ≤ 17 * ρ ^ 2 := by
        calc _ ≤ c * ρ ^ 2 := mul_le_mul_of_nonneg_left hc h3'
          _ ≤ 17 * ρ ^ 2 := mul_le_mul_of_nonneg_right h3 (by positivity)
      nlinarith
    have := abs_le.1 (hy.trans h4)
    exact hd.short y (by linarith [this.1]) (by linarith [this.2])
  rcases hd.asks.kind with hk | hk
  · obtain ⟨⟨p, z, t1, t2, t3⟩, t4⟩ := hdia hk
    have t3 := t3 (short z _ 17 (by linarith) le_rfl le_rfl (by norm_num) t2)
    obtain ⟨i1, i2⟩ := round_ink_paper (t4 e he)
    refine ⟨⟨by rw [h0]; simp, i1, ?_⟩, ?_⟩
    · intro y hy
      rw [t1, List.mem_singleton] at hy
      subst hy
      exact ⟨⟨_, _, t3⟩, fun _ => ⟨_, hd.plain hk z, rfl⟩⟩
    · rintro ⟨texts, arcs, ink⟩ ⟨k1, k0, k2⟩
      rw [t1] at k1
      rw [h0] at k0
      cases k0
      cases k1 with
      | @cons _ lab _ _ k1 k1' =>
        cases k1'
        obtain ⟨q', s1, s2, rfl⟩ := paints_sign F _ _ k1 rfl rfl
        exact ⟨rfl, e, _, z, he, rfl, fun _ => ⟨⟨q', ⟨printed t3.1 s1, printed t3.2 s2⟩, rfl⟩, t2, i2 _ k2⟩, fun h => by rw [hk] at h; cases h⟩
  · obtain ⟨⟨p, z, t1, t2, t3⟩, t4⟩ := hrad hk
    have t3 := t3 (short z _ 8 le_rfl (by linarith) (by norm_num) (by norm_num) t2)
    obtain ⟨i1, i2⟩ := round_ink_paper (t4 e he)
    refine ⟨⟨by rw [h0]; simp, i1, ?_⟩, ?_⟩
    · intro y hy
      rw [t1, List.mem_singleton] at hy
      subst hy
      exact ⟨⟨_, _, t3⟩, by simp⟩
    · rintro ⟨texts, arcs, ink⟩ ⟨k1, k0, k2⟩
      rw [t1] at k1
      rw [h0] at k0
      cases k0
      cases k1 with
      | @cons _ lab _ _ k1 k1' =>
        cases k1'
        obtain ⟨q', s1, s2, rfl⟩ := paints_centred F _ _ k1 rfl rfl
        exact ⟨rfl, e, _, z, he, rfl, (fun h => by rw [hk] at h; cases h), fun _ => ⟨⟨q', ⟨printed t3.1 s1, printed t3.2 s2⟩, rfl⟩, t2, i2 _ k2⟩⟩

/-- two places apart along a direction square to the line of sight have a direction on the page -/
theorem spanDir_exists {r : M3 ℝ} (hr : IsRotation r) {u : V3 ℝ} {f t : V2 ℝ} (hz : (u.mulM r).z = 0) (h : 0 < spanAlong r u f t) : ∃ e, SpanDir r u f t e := by
  have hu : len3 u ≠ 0 := by
    intro h0
    rw [spanAlong, h0, div_zero] at h
    exact lt_irrefl _ h
  have hu0 : 0 < len3 u := lt_of_le_of_ne (Real.sqrt_nonneg _) hu.symm
  have hd : (t - f).dot (seenAt r u) ≠ 0 := by
    intro h0
    rw [spanAlong, h0, abs_zero, zero_div] at h
    exact lt_irrefl _ h
  have hl : (u.mulM r).x ^ 2 + (u.mulM r).y ^ 2 = len3 u ^ 2 := by
    have h1 := len3_mul_self (u.mulM r)
    rw [rot_len hr] at h1
    simp only [V3.sqNorm, V3.dot, hz] at h1
    nlinarith
  obtain ⟨s, hs2, hs0⟩ : ∃ s : ℝ, s * s = 1 ∧ 0 < s * (t - f).dot (seenAt r u) := by
    rcases lt_or_gt_of_ne hd with h' | h'
    · exact ⟨-1, by norm_num, by linarith⟩
    · exact ⟨1, by norm_num, by linarith⟩
  refine ⟨(seenAt r u).smul (s / len3 u), ?_, ⟨s * len3 u, ?_⟩, ?_⟩
  · have : ((u.mulM r).x * (s / len3 u)) * ((u.mulM r).x * (s / len3 u)) + ((u.mulM r).y * (s / len3 u)) * ((u.mulM r).y * (s / len3 u)) =
        ((u.mulM r).x ^ 2 + (u.mulM r).y ^ 2) * (s * s) / len3 u ^ 2 := by field_simp
    rw [hl, hs2, mul_one, div_self (by positivity)] at this
    simpa [V2.dot, V2.smul, seenAt, V3.xy] using this
  · have e : s / len3 u * (s * len3 u) = 1 := by
      field_simp
      nlinarith
    ext
    · show (u.mulM r).x = (u.mulM r).x * (s / len3 u) * (s * len3 u)
      rw [mul_assoc, e, mul_one]
    · show (u.mulM r).y = (u.mulM r).y * (s / len3 u) * (s * len3 u)
      rw [mul_assoc, e, mul_one]
  · have : (t - f).dot ((seenAt r u).smul (s / len3 u)) = s * (t - f).dot (seenAt r u) / len3 u := by
      simp [V2.dot, V2.smul]; ring
    rw [this]
    positivity

theorem place_nonneg {named : Prop} {r : M3 ℝ} {us : List (Tri ℝ)} {M η : ℝ} (hM : 0 < M) (hη : 0 < η) {ms : List (Meta (Fl R))} {n : Str} {s : V2 ℝ} {ε : ℝ}
    (h : PlaceSeen named r us M η ms n s ε) : 0 ≤ ε := by
  cases h with
  | corner c => positivity
  | centre q l l' line m ρ N B A s _ _ _ h =>
    have hB : 0 ≤ B := by linarith [h.size.1]
    have hs := h.slack.1
    unfold rimErr
    positivity

/-- a dimension between places on paper -/
theorem span_paper (F : Fonts) {E : Env (Fl R)} {M η : ℝ} {named : Prop} {r : M3 ℝ} (hr : IsRotation r) (hM : 0 < M) (hη : 0 < η) {us : List (Tri ℝ)} {k : ℝ} {p off : V2 ℝ} {d : DimN (Fl R)} {u : V3 ℝ}
    {g : Fl R → Str} {a f t : V2 ℝ} {εa εf εt : ℝ} {b : OutPage (Fl R)} (h : SpanDone M η r k p off u g a f t εa εf εt b) (hd : MeasuredSpan E M η named r us d u g a f t εa εf εt) :
    FinPage b ∧ ∀ pb, PutsDown F b pb → SpanOnPaper F M η r k p off u g a f t εa εf εt pb.1 pb.2.1 pb.2.2 := by
  obtain ⟨h0, q, x, h1, h2, h3, h4⟩ := h
  have hl := hd.long
  have hf0 := place_nonneg hM hη hd.asks.start
  have ht0 := place_nonneg hM hη hd.asks.stop
  have hM9 : 0 < M / 2 ^ 9 := by positivity
  obtain ⟨e, he⟩ := spanDir_exists hr hd.asks.square (show 0 < spanAlong r u f t by linarith)
  obtain ⟨G, g1, fits, σf, σt, g2, g3, g4, g5, g6⟩ := h4 hd.short hl e he
  refine ⟨⟨by rw [h0]; simp, ?_, ?_⟩, ?_⟩
  · intro l hl'
    obtain ⟨m, -, hm⟩ := forall₂_mem g6 hl'
    exact ⟨_, _, _, hm.1, hm.2⟩
  · intro y hy
    rw [h1, List.mem_singleton] at hy
    subst hy
    exact ⟨⟨_, _, h3⟩, by simp⟩
  · rintro ⟨texts, arcs, ink⟩ ⟨k1, k0, k2⟩
    rw [h1] at k1
    rw [h0] at k0
    cases k0
    cases k1 with
    | @cons _ lab _ _ k1 k1' =>
      cases k1'
      obtain ⟨q', s1, s2, rfl⟩ := paints_centred F _ _ k1 rfl rfl
      exact ⟨rfl, _, x, e, G, rfl, ⟨q', ⟨printed h3.1 s1, printed h3.2 s2⟩, rfl⟩, h2, he, g1, fits, σf, σt, g2, g3, g4, g5,
        strokes_paper _ _ _ k2 g6⟩

end
/-- a leg has a direction on the page -/
theorem goes_along {R : Rounding} {named : Prop} {r : M3 ℝ} (hr : IsRotation r) {us : List (Tri ℝ)} {M η K : ℝ} (hM : 0 < M) {ms : List (Meta (Fl R))} {dn pn : Str} {l : Arm}
    (h : ArmAsks named r us M η ms dn pn l) {x q w : V2 ℝ} (hg : l.Goes r x q w) (hl : l.Long M K w) : ∃ e, Along w e := by
  have key : w.len ≠ 0 → ∃ e, Along w e := by
    intro hw
    have h0 : 0 < w.len := lt_of_le_of_ne (Real.sqrt_nonneg _) hw.symm
    have h2 : w.len * w.len = w.x ^ 2 + w.y ^ 2 := Real.mul_self_sqrt (by positivity)
    refine ⟨⟨w.x / w.len, w.y / w.len⟩, ?_, w.len, h0, ?_⟩
    · simp only [V2.dot]
      field_simp
      nlinarith
    · ext
      · simp [V2.smul]; field_simp
      · simp [V2.smul]; field_simp
  refine key ?_
  intro h0
  cases l with
  | along u =>
    obtain ⟨-, ⟨U, hU⟩, hz⟩ := h
    obtain ⟨-, rfl⟩ := hg
    have e : len3 (u.mulM r) = 0 := by
      rw [← h0]
      simp [len3, V2.len, seenAt, V3.xy, hz]
    rw [rot_len hr] at e
    have := hU.len.1
    have := hU.2.2.2.2.1
    rw [e] at *
    norm_num at *
    linarith
  | through p ε =>
    change M ≤ K * w.len at hl
    rw [h0, mul_zero] at hl
    linarith

/-- an angle between lines through centres on paper -/
theorem turn_paper (hR : R.Accurate) (F : Fonts) {E : Env (Fl R)} {M η : ℝ} {named : Prop} {r : M3 ℝ} (hr : IsRotation r) (hM : 0 < M) (hη : 0 < η) {us : List (Tri ℝ)} {k : ℝ} {p off : V2 ℝ}
    {d : DimN (Fl R)} {g : Fl R → Str} {a : V3 ℝ} {x : V2 ℝ} {εx : ℝ} {l l' : Arm} {K : ℝ} {b : OutPage (Fl R)} (h : TurnDone M η r k p off g a x εx l l' K b)
    (hd : TurnAsks E named r us M η d g a x εx l l' K) :
    FinPage b ∧ ∀ pb, PutsDown F b pb → TurnOnPaper F M η r k p off g a x εx l l' K pb.1 pb.2.1 pb.2.2 := by
  obtain ⟨x', q, w, q', w', hx, g1, g2, ⟨z, y, h1, h2, h3⟩, h4⟩ := h
  obtain ⟨l1, l2, hw⟩ := hd.wide _ _ _ _ _ hx g1 g2
  obtain ⟨e, he⟩ := goes_along hr hM hd.from_ g1 l1
  obtain ⟨e', he'⟩ := goes_along hr hM hd.to_ g2 l2
  have hsin := sin_legs noTurn_rotation (along_leg he) (along_leg he') (by rw [noTurn]) (by rw [noTurn])
  rw [angle2_flat] at hsin
  have hs2 : 0 < Real.sin (angle2 w w') ^ 2 := lt_of_lt_of_le (by have := hd.size; positivity) hw
  have text : ∀ pb : List Mark, List.Forall₂ (PaintsText (K := ℝ) F) b.text pb → ∃ label y, pb = [label] ∧ CentredAt F label (g y ++ c!" deg") (onPage r k off a) (inkError M k p) ∧
      Fl.Near y (angle2 w w' * 180 / Real.pi) (2 ^ 18 * (K * η) / Real.sin (angle2 w w')) := by
    intro pb k1
    rw [h1] at k1
    cases k1 with
    | @cons _ lab _ _ k1 k1' =>
      cases k1'
      obtain ⟨q', s1, s2, rfl⟩ := paints_centred F _ _ k1 rfl rfl
      exact ⟨_, y, rfl, ⟨q', ⟨printed h3.1 s1, printed h3.2 s2⟩, rfl⟩, h2⟩
  have textFin : ∀ x ∈ b.text, (∃ a ε, V2.NearTo x.at_ a ε) ∧ (x.raw = true → ∃ u, Plain u ∧ x.str = c!"\\351" ++ u) := by
    intro z hz
    rw [h1, List.mem_singleton] at hz
    subst hz
    exact ⟨⟨_, _, h3⟩, by simp⟩
  rcases lt_trichotomy (e.x * e'.y - e.y * e'.x) 0 with hl | h0 | hl
  · have hl' : 0 < e'.x * e.y - e'.y * e.x := by linarith
    obtain ⟨a1, a2, a3⟩ := angle_ink_paper hR ((h4 e e' he he').2 hl')
    exact ⟨⟨a1, a2, textFin⟩, fun pb hb => ⟨x', q, w, q', w', e, e', hx, g1, g2, he, he', text _ hb.1, Or.inr ⟨hl', a3 _ _ hb.2.1 hb.2.2⟩⟩⟩
  · rw [h0, abs_zero] at hsin
    rw [hsin] at hs2
    norm_num at hs2
  · obtain ⟨a1, a2, a3⟩ := angle_ink_paper hR ((h4 e e' he he').1 hl)
    exact ⟨⟨a1, a2, textFin⟩, fun pb hb => ⟨x', q, w, q', w', e, e', hx, g1, g2, he, he', text _ hb.1, Or.inl ⟨hl, a3 _ _ hb.2.1 hb.2.2⟩⟩⟩

end S2P
