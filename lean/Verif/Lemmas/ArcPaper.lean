import Verif.Spec.DimPaper
import Verif.Lemmas.AccuracyAngle
import Verif.Props.SpanPaper

set_option linter.unusedSectionVars false
set_option linter.unusedVariables false
set_option linter.unusedSimpArgs false

/-! # Arcs on paper -/

namespace S2P
open PS

section
variable {R : Rounding}

/-- the number of degrees, as computed -/
noncomputable def degOf (t : Fl R) : Ext ℝ := (t * FP.lit 180 / piLit : Fl R)

/-- the angle that has, without rounding, these degrees -/
noncomputable def angleExt (t : Fl R) : Ext ℝ := degOf t * (Ext.fin (31415926535897932 / 10000000000000000 / 180))

noncomputable def arcExt (a : Arc (Fl R)) : Arc (Ext ℝ) := ⟨a.center, a.r, angleExt a.start, angleExt a.stop⟩

/-- a page whose writing, without rounding, is that of `o` -/
noncomputable def pageExt (o : OutPage (Fl R)) : OutPage (Ext ℝ) := ⟨o.lines, o.arcs.map arcExt, o.text⟩

/-- the angles are numbers of degrees -/
def ArcFin (a : Arc (Fl R)) : Prop := V2.IsFin (K := ℝ) a.center ∧ Ext.IsFin (K := ℝ) a.r ∧ Ext.IsFin (degOf a.start) ∧ Ext.IsFin (degOf a.stop)

theorem angleExt_deg {t : Fl R} (h : (degOf t).IsFin) : (angleExt t * FP.lit 180 / piLit : Ext ℝ) = degOf t ∧ (angleExt t).IsFin := by
  obtain ⟨x, hx⟩ := h
  unfold angleExt
  rw [hx]
  have hp : (piLit : Ext ℝ) = .fin (31415926535897932 / 10000000000000000) := by rw [piLit, Ext.lit_eq]; norm_num
  rw [hp, Ext.lit_eq, Ext.fin_mul, Ext.fin_mul, Ext.fin_div _ _ (by norm_num)]
  refine ⟨?_, _, rfl⟩
  congr 1
  push_cast
  ring

theorem arcLine_ext {a : Arc (Fl R)} (h : ArcFin a) : arcLine a = arcLine (arcExt a) := by
  unfold arcLine arcExt
  simp only
  rw [(angleExt_deg h.2.2.1).1, (angleExt_deg h.2.2.2).1]
  rfl

theorem arcToPs_ext : ∀ {as : List (Arc (Fl R))}, (∀ a ∈ as, ArcFin a) → arcToPs as = arcToPs (as.map arcExt)
  | [], _ => rfl
  | a :: as, h => by
    have e := arcToPs_ext (as := as) fun x hx => h x (List.mem_cons_of_mem _ hx)
    unfold arcToPs at e ⊢
    rw [List.map_cons, List.flatMap_cons, List.flatMap_cons, e, arcLine_ext (h a List.mem_cons_self)]

end

section
variable (I : IntRounding) (range64 range32 : ℚ → Bool)

theorem renderFrom_arcs (E : Env (Fl (binary64 I range64 range32))) (n : Nat) : ∀ (k : Nat) (outs : List (OutPage (Fl (binary64 I range64 range32)))),
    (∀ o ∈ outs, ∀ a ∈ o.arcs, ArcFin a) → renderFrom E n k outs = renderFrom (α := Ext ℝ) E n k (outs.map pageExt)
  | _, [], _ => rfl
  | k, o :: os, h => by
    have h7 : (FP.lit 7 : Fl (binary64 I range64 range32)) = (FP.lit 7 : Ext ℝ) := by
      have := lit_int I range64 range32 7 (by norm_num)
      have e : (FP.lit 7 : Ext ℝ) = .fin (7 : ℝ) := by simp
      rw [e]
      simpa using this
    have ih := renderFrom_arcs E n (k + 1) os fun o ho => h o (List.mem_cons_of_mem _ ho)
    have ha := h o List.mem_cons_self
    have hh : pageHeader E (k + 1) n = pageHeader (α := Ext ℝ) E (k + 1) n := by
      unfold pageHeader
      rw [h7]
      rfl
    show pageHeader E (k + 1) n ++ textToPs o.text ++ arcToPs o.arcs ++ linesToPs o.lines ++ pageFooter ++ renderFrom E n (k + 1) os =
      pageHeader (α := Ext ℝ) E (k + 1) n ++ textToPs (α := Ext ℝ) o.text ++ arcToPs (o.arcs.map arcExt) ++ linesToPs (α := Ext ℝ) o.lines ++ pageFooter ++
        renderFrom (α := Ext ℝ) E n (k + 1) (os.map pageExt)
    rw [hh, ih, arcToPs_ext ha]
    rfl

theorem renderPages_arcs (E : Env (Fl (binary64 I range64 range32))) (src : Str) (outs : List (OutPage (Fl (binary64 I range64 range32))))
    (h : ∀ o ∈ outs, ∀ a ∈ o.arcs, ArcFin a) : renderPages E src outs = renderPages (α := Ext ℝ) E src (outs.map pageExt) := by
  unfold renderPages
  rw [renderFrom_arcs I range64 range32 E _ 0 outs h, List.length_map]
  rfl
end

section
variable {R : Rounding} (hR : R.Accurate)
include hR

/-- degrees of angles of either sign -/
theorem degrees_near4 {y : ℝ} (hy : |y| ≤ 4) : Fl.Near (R := R) (degOf (R := R) (Ext.fin y : Ext ℝ)) (y * 180 / Real.pi) (1000 / 2 ^ 50) := by
  have p1 := Real.pi_gt_d20
  have p2 := Real.pi_lt_d20
  have hpi : Fl.Near (piLit : Fl R) Real.pi (4 / 2 ^ 51 + 1 / 2 ^ 53) := by
    have := Fl.near_lit hR (31415926535897932 / 10000000000000000) (S := 4) (by norm_num) (by norm_num) (le_top (by norm_num))
    push_cast at this
    refine this.trans ?_
    rw [abs_le]
    constructor <;> norm_num at p1 p2 ⊢ <;> linarith
  have h180 : Fl.Near (FP.lit 180 : Fl R) 180 (256 / 2 ^ 51) := by
    have := Fl.near_lit hR 180 (S := 256) (by norm_num) (by norm_num) (le_top (by norm_num))
    push_cast at this
    exact this
  have hmul := (Fl.near_fin (R := R) y).mul hR h180 (A := 4) (B := 180) (S := 1024) hy (by norm_num) (by norm_num) (by norm_num) (le_top (by norm_num))
  have hmul' : Fl.Near ((show Fl R from (Ext.fin y : Ext ℝ)) * FP.lit 180) (y * 180) (1024 / 2 ^ 50) := hmul.mono (by norm_num)
  have hpos := Real.pi_pos
  have hq : |y * 180 / Real.pi| ≤ 240 := by
    rw [abs_div, abs_mul, abs_of_pos hpos, div_le_iff₀ hpos, abs_of_pos (by norm_num : (0 : ℝ) < 180)]; norm_num at p1; linarith
  have hd : (1024 / 2 ^ 50 + |y * 180 / Real.pi| * (4 / 2 ^ 51 + 1 / 2 ^ 53)) / (|Real.pi| - (4 / 2 ^ 51 + 1 / 2 ^ 53)) ≤ 520 / 2 ^ 50 := by
    rw [abs_of_pos hpos, div_le_iff₀ (by norm_num at p1 ⊢; linarith)]
    have a1 : |y * 180 / Real.pi| * (4 / 2 ^ 51 + 1 / 2 ^ 53) ≤ 240 * (4 / 2 ^ 51 + 1 / 2 ^ 53) := mul_le_mul_of_nonneg_right hq (by positivity)
    norm_num at a1 p1 ⊢
    linarith
  refine (hmul'.div hR hpi ?_ (S := 256) ?_ (by norm_num) (le_top (by norm_num))).mono ?_
  · rw [abs_of_pos hpos]; norm_num at p1 ⊢; linarith
  · norm_num at hd ⊢; linarith
  · norm_num at hd ⊢; linarith

/-- an angle on paper -/
theorem turned_of {δ : ℝ} {t : Fl R} {a : V2 ℝ} (h : IsAngle δ t a) : (degOf t).IsFin ∧ ∀ q, Degrees (angleExt t) q → TurnedTo (δ + 1 / 2 ^ 15) q a := by
  obtain ⟨y, rfl, hy, hc, hs⟩ := h
  obtain ⟨x, hx, hn⟩ := degrees_near4 hR hy
  have hf : (degOf (R := R) (Ext.fin y : Ext ℝ)).IsFin := ⟨x, hx⟩
  refine ⟨hf, ?_⟩
  rintro q ⟨k, e, hk⟩
  have hpos := Real.pi_pos
  have p1 := Real.pi_gt_d2
  have p2 := Real.pi_lt_d2
  have hkx : k * 180 / (31415926535897932 / 10000000000000000) = x := by
    unfold angleExt at e
    rw [show degOf (R := R) (Ext.fin y : Ext ℝ) = Ext.fin x from hx, Ext.fin_mul] at e
    injection e with e
    rw [← e]; ring
  rw [hkx] at hk
  unfold SixDigits at hk
  have hq : |y * 180 / Real.pi| ≤ 232 := by
    rw [abs_div, abs_mul, abs_of_pos hpos, div_le_iff₀ hpos, abs_of_pos (by norm_num : (0 : ℝ) < 180)]; norm_num at p1; linarith
  have hx232 : |x| ≤ 233 := by
    have := abs_add_le (x - y * 180 / Real.pi) (y * 180 / Real.pi)
    rw [sub_add_cancel] at this
    norm_num at hn; linarith
  have hd : |(q : ℝ) - y * 180 / Real.pi| ≤ 1 / 800 := by
    have := abs_add_le ((q : ℝ) - x) (x - y * 180 / Real.pi)
    rw [sub_add_sub_cancel] at this
    norm_num at hn hk; linarith
  have hr : |(q : ℝ) * (Real.pi / 180) - y| ≤ 1 / 2 ^ 15 := by
    have e2 : (q : ℝ) * (Real.pi / 180) - y = ((q : ℝ) - y * 180 / Real.pi) * (Real.pi / 180) := by field_simp
    rw [e2, abs_mul, abs_of_pos (by positivity : 0 < Real.pi / 180)]
    have h1 : Real.pi / 180 ≤ 3.15 / 180 := div_le_div_of_nonneg_right p2.le (by norm_num)
    refine (mul_le_mul hd h1 (by positivity) (by norm_num)).trans ?_
    norm_num
  have c1 := Real.abs_cos_sub_cos_le ((q : ℝ) * (Real.pi / 180)) y
  have c2 := Real.abs_sin_sub_sin_le ((q : ℝ) * (Real.pi / 180)) y
  constructor
  · have := abs_add_le (Real.cos ((q : ℝ) * (Real.pi / 180)) - Real.cos y) (Real.cos y - a.x)
    rw [sub_add_sub_cancel] at this
    linarith
  · have := abs_add_le (Real.sin ((q : ℝ) * (Real.pi / 180)) - Real.sin y) (Real.sin y - a.y)
    rw [sub_add_sub_cancel] at this
    linarith

/-- an arc on paper -/
theorem arc_path {ε δ : ℝ} {c : Arc (Fl R)} {x : V2 ℝ} {L : ℝ} {a b : V2 ℝ} (h : ArcNear ε δ c x L a b) :
    ArcFin c ∧ ∀ path, PaintsArc (arcExt c) (.stroke path) → ArcPath ε δ path x L a b := by
  obtain ⟨h1, h2, h3, h4⟩ := h
  obtain ⟨f3, t3⟩ := turned_of hR h3
  obtain ⟨f4, t4⟩ := turned_of hR h4
  refine ⟨⟨nearTo_isFin h1, near_isFin h2, f3, f4⟩, ?_⟩
  rintro path ⟨qx, qy, qr, q1, q2, s1, s2, s3, s4, s5, e⟩
  injection e with e
  exact ⟨⟨qx, qy⟩, qr, q1, q2, e, ⟨printed h1.1 s1, printed h1.2 s2⟩, printed h2 s3, t3 _ s4, t4 _ s5⟩

omit hR in
theorem arc_paths : ∀ (as : List (Arc (Fl R))) (ms : List Mark), List.Forall₂ (fun a m => PaintsArc (arcExt a) m) as ms →
    ∃ ink : List (List Elem), ms = ink.map Mark.stroke ∧ List.Forall₂ (fun a path => PaintsArc (arcExt a) (.stroke path)) as ink
  | [], _, .nil => ⟨[], rfl, .nil⟩
  | l :: ls, _, .cons h1 h2 => by
    obtain ⟨ink, rfl, h3⟩ := arc_paths ls _ h2
    obtain ⟨qx, qy, qr, q1, q2, s1, s2, s3, s4, s5, rfl⟩ := h1
    exact ⟨_ :: ink, rfl, .cons ⟨qx, qy, qr, q1, q2, s1, s2, s3, s4, s5, rfl⟩ h3⟩

end
end S2P
