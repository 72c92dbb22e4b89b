import Verif.Lemmas.Paint
import Verif.Props.Numbers
import Mathlib.Analysis.Real.Pi.Bounds

set_option linter.unusedSectionVars false
set_option linter.unusedVariables false
set_option linter.unusedSimpArgs false

/-! # C35: what the output puts on paper -/

namespace S2P
namespace PS
variable {K : Type} [Field K] [LinearOrder K] [IsStrictOrderedRing K] [FloorRing K] [Trans K]

theorem show6_seven : Ext.show6 (7 : K) = c!"7" := by
  have hl : Int.log 10 (7 : K) = 0 := by
    have := Int.log_natCast (R := K) 10 7
    rw [show ((7 : ℕ) : K) = 7 by norm_num] at this
    rw [this]; decide
  have hf : (7 : K) / (10 : K) ^ ((0 : Int) - 5) = ((700000 : Int) : K) := by norm_num
  have hr : Ext.roundEven ((7 : K) / (10 : K) ^ ((0 : Int) - 5)) = 700000 := by
    rw [hf, Ext.roundEven]
    simp
  have h6 : Ext.sixDigits (7 : K) = (0, 700000) := by
    simp only [Ext.sixDigits, hl, hr]; decide
  rw [Ext.show6, if_neg (by norm_num), if_pos (by norm_num), h6]
  simp [Ext.layout6, Ext.natDigits, Ext.dropZeros]

theorem reads_six {a : Ext K} (ha : a.IsFin) : ∃ q, readNum (FP.g6 a) = some q ∧ Six a q := by
  obtain ⟨k, rfl⟩ := ha
  obtain ⟨q, h1, h2⟩ := show6_reads k
  exact ⟨q, h1, k, rfl, h2⟩

theorem fin_xy {p : V2 (Ext K)} (h : p.IsFin) : p.x.IsFin ∧ p.y.IsFin := by
  obtain ⟨q, rfl⟩ := h
  exact ⟨⟨_, rfl⟩, ⟨_, rfl⟩⟩

theorem reads_degrees {a : Ext K} (ha : a.IsFin) : ∃ q, readNum (FP.g6 (a * FP.lit 180 / piLit)) = some q ∧ Degrees a q := by
  obtain ⟨k, rfl⟩ := ha
  have e : (Ext.fin k * FP.lit 180 / piLit : Ext K) = .fin (k * 180 / (31415926535897932 / 10000000000000000)) := by
    have hp : (piLit : Ext K) = .fin (31415926535897932 / 10000000000000000) := by
      rw [piLit, Ext.lit_eq]; norm_num
    rw [hp, Ext.lit_eq, Ext.fin_mul, Ext.fin_div _ _ (by norm_num)]
    norm_num
  rw [e]
  obtain ⟨q, h1, h2⟩ := show6_reads (k * 180 / (31415926535897932 / 10000000000000000))
  exact ⟨q, h1, k, rfl, h2⟩

variable (F : Fonts)

theorem run_texts (ts : List (PsText (Ext K))) (h : ∀ t ∈ ts, t.at_.IsFin) : ∀ path cur ms, ∃ path' cur' out,
    run F 3 (mid [] path cur ms) (ts.flatMap textToks) = some (mid [] path' cur' (ms ++ out)) ∧ List.Forall₂ (PaintsText F) ts out := by
  induction ts with
  | nil => intro path cur ms; exact ⟨path, cur, [], by simp [run_nil], .nil⟩
  | cons t ts ih =>
    intro path cur ms
    obtain ⟨qx, rx, sx⟩ := reads_six (fin_xy (h t List.mem_cons_self)).1
    obtain ⟨qy, ry, sy⟩ := reads_six (fin_xy (h t List.mem_cons_self)).2
    obtain ⟨p1, c1, e1⟩ := run_text F 0 path cur ms _ _ (shown t) t.center qx qy rx ry
    obtain ⟨p2, c2, out, e2, f2⟩ := ih (fun u hu => h u (List.mem_cons_of_mem _ hu)) p1 c1
      (ms ++ [.text (if t.center then ⟨qx - (F.width c!"Courier" 8 (shown t)).x / 2, qy - (F.bbox c!"Courier").2.2.2 * 8 / 3200⟩ else ⟨qx, qy⟩) (shown t) c!"Courier" 8])
    refine ⟨p2, c2, _ :: out, ?_, .cons ⟨qx, qy, sx, sy, rfl⟩ f2⟩
    rw [List.flatMap_cons, run_append, textToks, e1, Option.bind_some, e2]
    simp

theorem run_arcs (as : List (Arc (Ext K))) (h : ∀ a ∈ as, a.IsFin) : ∀ path cur ms, ∃ path' cur' out,
    run F 3 (mid [] path cur ms) (as.flatMap arcToks) = some (mid [] path' cur' (ms ++ out)) ∧ List.Forall₂ PaintsArc as out := by
  induction as with
  | nil => intro path cur ms; exact ⟨path, cur, [], by simp [run_nil], .nil⟩
  | cons a as ih =>
    intro path cur ms
    obtain ⟨hc, hr, h1, h2⟩ := h a List.mem_cons_self
    obtain ⟨qx, rx, sx⟩ := reads_six (fin_xy hc).1
    obtain ⟨qy, ry, sy⟩ := reads_six (fin_xy hc).2
    obtain ⟨qr, rr, sr⟩ := reads_six hr
    obtain ⟨q1, r1, s1⟩ := reads_degrees h1
    obtain ⟨q2, r2, s2⟩ := reads_degrees h2
    have e1 := run_arc F 0 path cur ms _ _ _ _ _ qx qy qr q1 q2 rx ry rr r1 r2
    obtain ⟨p2, c2, out, e2, f2⟩ := ih (fun u hu => h u (List.mem_cons_of_mem _ hu)) [] none (ms ++ [.stroke [.arc ⟨qx, qy⟩ qr q1 q2]])
    refine ⟨p2, c2, _ :: out, ?_, .cons ⟨qx, qy, qr, q1, q2, sx, sy, sr, s1, s2, rfl⟩ f2⟩
    rw [List.flatMap_cons, run_append, arcToks, e1, Option.bind_some, e2]
    simp

theorem run_lines (ls : List (Line (Ext K))) (h : ∀ l ∈ ls, l.IsFin) : ∀ path cur ms, ∃ path' cur' out,
    run F 3 (mid [] path cur ms) (ls.flatMap lineToks) = some (mid [] path' cur' (ms ++ out)) ∧ List.Forall₂ PaintsLine ls out := by
  induction ls with
  | nil => intro path cur ms; exact ⟨path, cur, [], by simp [run_nil], .nil⟩
  | cons l ls ih =>
    intro path cur ms
    obtain ⟨ho, ht⟩ := h l List.mem_cons_self
    obtain ⟨q1, r1, s1⟩ := reads_six (fin_xy ho).1
    obtain ⟨q2, r2, s2⟩ := reads_six (fin_xy ho).2
    obtain ⟨q3, r3, s3⟩ := reads_six (fin_xy ht).1
    obtain ⟨q4, r4, s4⟩ := reads_six (fin_xy ht).2
    have e1 := run_line F 0 path cur ms _ _ _ _ q1 q2 q3 q4 r1 r2 r3 r4
    obtain ⟨p2, c2, out, e2, f2⟩ := ih (fun u hu => h u (List.mem_cons_of_mem _ hu)) [] none (ms ++ [.stroke [.move ⟨q1, q2⟩, .line ⟨q3, q4⟩]])
    refine ⟨p2, c2, _ :: out, ?_, .cons ⟨q1, q2, q3, q4, s1, s2, s3, s4, rfl⟩ f2⟩
    rw [List.flatMap_cons, run_append, lineToks, e1, Option.bind_some, e2]
    simp

theorem run_corner (E : Env (Ext K)) (i n : Nat) (path : List Elem) (cur : Option (V2 ℚ)) (ms : List Mark) : ∃ path' cur',
    run F 3 (mid [] path cur ms) (cornerToks E i n) =
      some (mid [] path' cur' (ms ++ ((cornerLabel E i n).map (fun s => Mark.text ⟨7, 7⟩ (eol s) c!"Courier" 8)).toList)) := by
  unfold cornerToks
  cases cornerLabel E i n with
  | none => exact ⟨path, cur, by simp [run_nil]⟩
  | some s =>
    have h7 : readNum (FP.g6 (FP.lit 7 : Ext K)) = some 7 := by
      have : FP.g6 (FP.lit 7 : Ext K) = Ext.show6 ((7 : ℚ) : K) := rfl
      rw [this, show ((7 : ℚ) : K) = 7 by norm_num, show6_seven]
      decide +kernel
    obtain ⟨p, c, e⟩ := run_text F 0 path cur ms _ _ (eol s) false 7 7 h7 h7
    refine ⟨p, c, ?_⟩
    simpa using e

theorem run_page (E : Env (Ext K)) (n i : Nat) (P : OutPage (Ext K)) (hP : P.IsFin) (path : List Elem) (cur : Option (V2 ℚ)) (ms : List Mark) :
    ∃ path' cur' out, run F 3 (mid [] path cur ms) (pageToks E n i P) = some (mid [] path' cur' (ms ++ out)) ∧ PaintsPage F E n i P out := by
  obtain ⟨hl, ha, ht⟩ := hP
  obtain ⟨p1, c1, e1⟩ := run_corner F E i n [] none (ms ++ [border])
  obtain ⟨p2, c2, mt, e2, f2⟩ := run_texts F P.text ht p1 c1 _
  obtain ⟨p3, c3, ma, e3, f3⟩ := run_arcs F P.arcs ha p2 c2 _
  obtain ⟨p4, c4, ml, e4, f4⟩ := run_lines F P.lines hl p3 c3 _
  refine ⟨[], none, _, ?_, mt, ma, ml, rfl, f2, f3, f4⟩
  rw [pageToks, run_append, run_append, run_append, run_append, run_append, run_pageStart F 0 [] path cur ms rfl, Option.bind_some, e1, Option.bind_some, e2,
    Option.bind_some, e3, Option.bind_some, e4, Option.bind_some, run_cons, mid_showpage, Option.bind_some, run_nil]
  simp

theorem run_pages (E : Env (Ext K)) (n : Nat) (Ps : List (OutPage (Ext K))) (hP : ∀ P ∈ Ps, P.IsFin) : ∀ i path cur ms, ∃ path' cur' out,
    run F 3 (mid [] path cur ms) (pagesToks E n i Ps) = some (mid [] path' cur' (ms ++ out)) ∧ PaintsPages F E n i Ps out := by
  induction Ps with
  | nil => intro i path cur ms; exact ⟨path, cur, [], by simp [pagesToks, run_nil], rfl⟩
  | cons P Ps ih =>
    intro i path cur ms
    obtain ⟨p1, c1, a, e1, f1⟩ := run_page F E n i P (hP P List.mem_cons_self) path cur ms
    obtain ⟨p2, c2, b, e2, f2⟩ := ih (fun Q hQ => hP Q (List.mem_cons_of_mem _ hQ)) (i + 1) p1 c1 (ms ++ a)
    refine ⟨p2, c2, a ++ b, ?_, a, b, rfl, f1, f2⟩
    rw [pagesToks, run_append, e1, Option.bind_some, e2, List.append_assoc]

/-- Running the whole output puts exactly the pages on paper: per page the border, the corner's label if asked for, each text once, each arc
once with its angles in degrees, each line once, all in the order of the page's lists, and then the page is put out.  Coordinates are
printed to six significant digits; centred text is moved by half its width.  Needed: finite coordinates, no line break in the header's
fields, and harmless raw texts. -/
theorem C35_paints (E : Env (Ext K)) (src : Str) (Ps : List (OutPage (Ext K))) (hfin : ∀ P ∈ Ps, P.IsFin)
    (hraw : ∀ P ∈ Ps, ∀ t ∈ P.text, Harmless t) (h1 : OneLine E.name) (h2 : OneLine src) (h3 : OneLine E.now) :
    ∃ ms, Paints F (renderPages E src Ps) ms ∧ PaintsPages F E Ps.length 1 Ps ms := by
  obtain ⟨p, c, out, e, f⟩ := run_pages F E Ps.length Ps hfin 1 [] none []
  refine ⟨out, ⟨docToks E Ps, 3, mid [] p c ([] ++ out), ?_, ?_, rfl, ?_⟩, f⟩
  · exact ((reads_documentHeader E src h1 h2 h3).app (reads_renderFrom E Ps.length Ps hraw 0)).scan
  · rw [docToks, run_append, run_prologue, Option.bind_some, e]
  · simp

/-- pages that meet the premises -/
example : (⟨[⟨V2.fin ⟨0, 0⟩, V2.fin ⟨1, 2⟩⟩], [⟨V2.fin ⟨3, 3⟩, .fin 2, .fin 0, .fin 1⟩], [⟨V2.fin ⟨1, 1⟩, c!"\\3514.5", true, true⟩]⟩ : OutPage (Ext ℚ)).IsFin ∧
    Harmless (⟨V2.fin ⟨1, 1⟩, c!"\\3514.5", true, true⟩ : PsText (Ext ℚ)) := by
  refine ⟨⟨?_, ?_, ?_⟩, fun _ => ⟨c!"4.5", by unfold Plain; decide, rfl⟩⟩
  · simp only [List.mem_singleton]; rintro l rfl; exact ⟨⟨_, rfl⟩, ⟨_, rfl⟩⟩
  · simp only [List.mem_singleton]; rintro l rfl; exact ⟨⟨_, rfl⟩, ⟨_, rfl⟩, ⟨_, rfl⟩, ⟨_, rfl⟩⟩
  · simp only [List.mem_singleton]; rintro l rfl; exact ⟨_, rfl⟩

/-- `Paints` determines what is painted -/
theorem C35_determined {F : Fonts} {text : Str} {a b : List Mark} (ha : Paints F text a) (hb : Paints F text b) : a = b := ha.unique hb

/-- the printed angles are the arc's angles in degrees, in terms of π -/
theorem C35_degrees (t : ℝ) (q : ℚ) (h : Degrees (Ext.fin t) q) : |(q : ℝ) - t * 180 / Real.pi| ≤ |t * 180 / Real.pi| * (6 / 10 ^ 6) := by
  obtain ⟨k, e, h⟩ := h
  injection e with e
  subst e
  unfold SixDigits at h
  have h1 := Real.pi_gt_d20
  have h2 := Real.pi_lt_d20
  have hp : (0 : ℝ) < Real.pi := Real.pi_pos
  set p : ℝ := 31415926535897932 / 10000000000000000 with hpd
  have hp0 : (0 : ℝ) < p := by rw [hpd]; norm_num
  have e : t * 180 / p = t * 180 / Real.pi * (Real.pi / p) := by field_simp
  have l1 : |Real.pi / p - 1| ≤ 1 / 10 ^ 15 := by
    have : Real.pi / p - 1 = (Real.pi - p) / p := by field_simp
    rw [this, abs_le]
    constructor
    · rw [le_div_iff₀ hp0, hpd]; norm_num at h1 h2 ⊢; linarith
    · rw [div_le_iff₀ hp0, hpd]; norm_num at h1 h2 ⊢; linarith
  have l2 : |t * 180 / p - t * 180 / Real.pi| ≤ |t * 180 / Real.pi| * (1 / 10 ^ 15) := by
    rw [e, show t * 180 / Real.pi * (Real.pi / p) - t * 180 / Real.pi = t * 180 / Real.pi * (Real.pi / p - 1) by ring, abs_mul]
    exact mul_le_mul_of_nonneg_left l1 (abs_nonneg _)
  have l3 : |t * 180 / p| ≤ |t * 180 / Real.pi| * (1 + 1 / 10 ^ 15) := by
    have := abs_sub_abs_le_abs_sub (t * 180 / p) (t * 180 / Real.pi)
    linarith
  have l4 := abs_sub_le (q : ℝ) (t * 180 / p) (t * 180 / Real.pi)
  have l5 := abs_nonneg (t * 180 / Real.pi)
  have h' : |(q : ℝ) - t * 180 / p| ≤ |t * 180 / p| * (5 / 10 ^ 6) := h
  clear_value p
  generalize |t * 180 / Real.pi| = A at *
  generalize |t * 180 / p| = B at *
  generalize |t * 180 / p - t * 180 / Real.pi| = C at *
  generalize |(q : ℝ) - t * 180 / p| = D at *
  norm_num at l2 l3 h' ⊢
  linarith

/-! ## C60: printed numbers -/

/-- A finite number is printed as a PostScript number that differs from it by at most half a unit in the sixth significant digit. -/
theorem C60_six_digits (k : K) : ∃ q, readNum (FP.g6 (Ext.fin k)) = some q ∧ |(q : K) - k| ≤ |k| * (5 / 10 ^ 6) := show6_reads k

/-- Infinities and not-a-number are printed as names, not as numbers. -/
theorem C60_not_numbers (a : Ext K) : (∃ q, readNum (FP.g6 a) = some q) ↔ a.IsFin := by
  constructor
  · intro ⟨q, h⟩
    cases a with
    | fin k => exact ⟨k, rfl⟩
    | pinf => exact absurd h (by rw [show readNum (FP.g6 (Ext.pinf : Ext K)) = none from (by decide +kernel : readNum c!"inf" = none)]; simp)
    | ninf => exact absurd h (by rw [show readNum (FP.g6 (Ext.ninf : Ext K)) = none from (by decide +kernel : readNum c!"-inf" = none)]; simp)
    | nan => exact absurd h (by rw [show readNum (FP.g6 (Ext.nan : Ext K)) = none from (by decide +kernel : readNum c!"nan" = none)]; simp)
  · intro ha
    obtain ⟨q, h, -⟩ := reads_six ha
    exact ⟨q, h⟩

/-! ## C61: centred text -/

/-- Running a centred text, whatever the font's metrics: the middle of the painted text is at the text's place, to six digits; text that
is not centred starts there. -/
theorem C61_centred (t : PsText (Ext K)) (ht : t.at_.IsFin) (hh : Harmless t) (path : List Elem) (cur : Option (V2 ℚ)) (ms : List Mark) :
    ∃ m' p s, scan (textLine t) = some (textToks t) ∧ run F 3 (mid [] path cur ms) (textToks t) = some m' ∧
      m'.marks = ms ++ [.text p s c!"Courier" 8] ∧ Six t.at_.x (if t.center then p.x + (F.width c!"Courier" 8 s).x / 2 else p.x) := by
  obtain ⟨qx, rx, sx⟩ := reads_six (fin_xy ht).1
  obtain ⟨qy, ry, sy⟩ := reads_six (fin_xy ht).2
  obtain ⟨p1, c1, e1⟩ := run_text F 0 path cur ms _ _ (shown t) t.center qx qy rx ry
  refine ⟨_, _, _, (reads_textLine t hh).scan, e1, rfl, ?_⟩
  cases t.center
  · simpa using sx
  · simpa using sx

end PS
end S2P
