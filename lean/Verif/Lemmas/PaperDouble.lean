import Verif.Lemmas.AccuracyDraw
import Verif.Lemmas.Paper
import Verif.Spec.PaperDouble
import Verif.Props.Text

set_option linter.unusedSectionVars false
set_option linter.unusedVariables false
set_option linter.unusedSimpArgs false

/-! # Lemmas for C76 -/

namespace S2P
open PS

/-! ## Small integers are numbers of the format -/

theorem roundTo_int (I : IntRounding) (z : ℤ) (hz : |z| < 2 ^ 53) : roundTo I 53 (-1074) (z : ℝ) = z := by
  by_cases h0 : z = 0
  · subst h0
    have := I.int 0
    simp only [Int.cast_zero] at this
    simp [roundTo, this]
  have hpos : (0 : ℝ) < |(z : ℝ)| := abs_pos.mpr (by exact_mod_cast h0)
  have hlog : Int.log 2 |(z : ℝ)| < 53 := by
    have := (Int.lt_zpow_iff_log_lt (b := 2) (R := ℝ) (by norm_num) (x := 53) hpos).mp (by
      have : (|z| : ℝ) < 2 ^ 53 := by exact_mod_cast hz
      exact_mod_cast this)
    exact this
  have hl : lastPlace 53 (-1074) (z : ℝ) ≤ 0 := by
    unfold lastPlace
    push_cast
    omega
  obtain ⟨k, hk⟩ := Int.eq_ofNat_of_zero_le (neg_nonneg.mpr hl)
  have hk' : lastPlace 53 (-1074) (z : ℝ) = -(k : ℤ) := by omega
  unfold roundTo
  rw [hk', zpow_neg, zpow_natCast, div_inv_eq_mul]
  have := I.int (z * 2 ^ k)
  push_cast at this
  rw [this]
  push_cast
  field_simp

section
variable (I : IntRounding) (range64 range32 : ℚ → Bool)

theorem lit_int (z : ℤ) (hz : |z| < 2 ^ 53) : (FP.lit (z : ℚ) : Fl (binary64 I range64 range32)) = (.fin (z : ℝ) : Ext ℝ) := by
  show overflow _ (roundTo I 53 (-1074) (((z : ℚ) : ℝ))) = _
  rw [show (((z : ℚ) : ℝ)) = (z : ℝ) by simp, roundTo_int I z hz]
  have h : |(z : ℝ)| < 2 ^ 53 := by exact_mod_cast hz
  have h2 : (2 : ℝ) ^ 53 ≤ 2 ^ 1024 := pow_le_pow_right₀ (by norm_num) (by norm_num)
  exact overflow_fin (h.trans_le h2)

/-! ## Writing pages -/

/-- without arcs, writing pages does no arithmetic -/
theorem renderFrom_ext (E : Env (Fl (binary64 I range64 range32))) (n : Nat) : ∀ (k : Nat) (outs : List (OutPage (Fl (binary64 I range64 range32)))),
    (∀ o ∈ outs, o.arcs = []) → renderFrom E n k outs = renderFrom (α := Ext ℝ) E n k outs
  | _, [], _ => rfl
  | k, o :: os, h => by
    have h7 : (FP.lit 7 : Fl (binary64 I range64 range32)) = (FP.lit 7 : Ext ℝ) := by
      have := lit_int I range64 range32 7 (by norm_num)
      have e : (FP.lit 7 : Ext ℝ) = .fin (7 : ℝ) := by simp
      rw [e]
      simpa using this
    have ih := renderFrom_ext E n (k + 1) os fun o ho => h o (List.mem_cons_of_mem _ ho)
    have ha := h o List.mem_cons_self
    have hh : pageHeader E (k + 1) n = pageHeader (α := Ext ℝ) E (k + 1) n := by
      unfold pageHeader
      rw [h7]
      rfl
    show pageHeader E (k + 1) n ++ textToPs o.text ++ arcToPs o.arcs ++ linesToPs o.lines ++ pageFooter ++ renderFrom E n (k + 1) os =
      pageHeader (α := Ext ℝ) E (k + 1) n ++ textToPs (α := Ext ℝ) o.text ++ arcToPs (α := Ext ℝ) o.arcs ++ linesToPs (α := Ext ℝ) o.lines ++ pageFooter ++
        renderFrom (α := Ext ℝ) E n (k + 1) os
    rw [hh, ih, ha]
    rfl

theorem renderPages_ext (E : Env (Fl (binary64 I range64 range32))) (src : Str) (outs : List (OutPage (Fl (binary64 I range64 range32))))
    (h : ∀ o ∈ outs, o.arcs = []) : renderPages E src outs = renderPages (α := Ext ℝ) E src outs := by
  unfold renderPages
  rw [renderFrom_ext I range64 range32 E _ 0 outs h]
  rfl
end

/-! ## Printing -/

section
variable {R : Rounding}

theorem printed {x : Fl R} {a ε : ℝ} {q : ℚ} (hx : Fl.Near x a ε) (hq : Six (K := ℝ) x q) : Printed q a ε := by
  obtain ⟨b, rfl, hb⟩ := hx
  obtain ⟨k, e, hk⟩ := hq
  injection e with e
  subst e
  unfold SixDigits at hk
  unfold Printed
  have h1 := abs_add_le ((q : ℝ) - b) (b - a)
  rw [sub_add_sub_cancel] at h1
  have h2 := abs_add_le (b - a) a
  rw [sub_add_cancel] at h2
  have : |b| * (5 / 10 ^ 6) ≤ (|a| + ε) * (5 / 10 ^ 6) := mul_le_mul_of_nonneg_right (by linarith) (by norm_num)
  linarith

theorem near_isFin {x : Fl R} {a ε : ℝ} (h : Fl.Near x a ε) : Ext.IsFin (K := ℝ) x := by
  obtain ⟨b, e, -⟩ := h
  exact ⟨b, e⟩

theorem nearTo_isFin {p : V2 (Fl R)} {a : V2 ℝ} {ε : ℝ} (h : V2.NearTo p a ε) : V2.IsFin (K := ℝ) p := by
  obtain ⟨⟨b, e, -⟩, c, e', -⟩ := h
  refine ⟨⟨b, c⟩, ?_⟩
  obtain ⟨x, y⟩ := p
  simp only at e e'
  subst e e'
  rfl

theorem line_near {l : Line (Fl R)} {a b : V2 ℝ} {ε : ℝ} {path : List Elem} (h1 : V2.NearTo l.o a ε) (h2 : V2.NearTo l.t b ε)
    (h : PaintsLine (K := ℝ) l (.stroke path)) : LineNear path a b ε := by
  obtain ⟨ax, ay, bx, by', s1, s2, s3, s4, e⟩ := h
  injection e with e
  exact ⟨⟨ax, ay⟩, ⟨bx, by'⟩, e, ⟨printed h1.1 s1, printed h1.2 s2⟩, printed h2.1 s3, printed h2.2 s4⟩

end

section
variable {R : Rounding} (hR : R.Accurate)
include hR

/-! ## Texts -/

theorem textLoc_near1 {x c : ℝ} (q : ℚ) (hq : (q : ℝ) = c) (h0 : 0 ≤ c) (h1 : c ≤ 396) (hx : |x| ≤ 2 ^ 128) :
    Fl.Near (FP.lit 0 + (show Fl R from (Ext.fin x : Ext ℝ)) * FP.lit 72 + FP.lit q) (72 * x + c) ((|72 * x + c| + 1) / 2 ^ 39) := by
  have b1 : ∀ {S : ℝ}, S ≤ 2 ^ 140 → S ≤ 2 ^ 1000 := fun h => h.trans (pow_le_pow_right₀ (by norm_num) (by norm_num))
  have l72 := Fl.near_lit hR 72 (S := 128) (by norm_num) (by norm_num) (le_top (by norm_num))
  push_cast at l72
  have lq := Fl.near_lit hR q (S := 512) (by rw [hq, abs_of_nonneg h0]; linarith) (by norm_num) (le_top (by norm_num))
  rw [hq] at lq
  have hx0 := abs_nonneg x
  have m := (Fl.near_fin x).mul hR l72 le_rfl (B := 72) (S := 73 * |x| + 1) (by norm_num) (by norm_num; linarith) (by norm_num; linarith)
    (b1 (by norm_num at hx ⊢; linarith))
  have hxx : 72 * |x| ≤ |72 * x + c| + 396 := by
    have := abs_sub (72 * x + c) c
    rw [add_sub_cancel_right, abs_mul] at this
    rw [abs_of_nonneg h0] at this
    norm_num at this
    linarith
  have up : |72 * x + c| ≤ 72 * |x| + 396 := by
    have := abs_add_le (72 * x) c
    rw [abs_mul, abs_of_nonneg h0] at this
    norm_num at this
    linarith
  rw [mul_comm x 72] at m
  have hxc := abs_nonneg (72 * x + c)
  have e72 : |72 * x| = 72 * |x| := by rw [abs_mul]; norm_num
  have z : Fl.Near (FP.lit 0 : Fl R) 0 0 := by rw [lit_zero]; exact Fl.near_fin 0
  have m' := (z.add hR m (S := 73 * |x| + 1) (by rw [zero_add, e72]; norm_num; linarith) (by norm_num; linarith)
    (b1 (by norm_num at hx ⊢; linarith)))
  rw [zero_add] at m'
  refine (m'.add hR lq (S := |72 * x + c| + |x| + 2) (by norm_num; linarith) (by norm_num; linarith) (b1 (by norm_num at hx ⊢; linarith))).mono ?_
  norm_num; linarith

/-- where a text starts -/
theorem textLoc_near (ms : List (Meta (Fl R))) (hf : ∀ m ∈ ms, m.val.LocBd) (loc : V2 (Fl R)) (h : textLocOf (look ms c!"@") = .ok loc) :
    ∃ p : V2 ℝ, TextAskedAt ms p ∧ V2.NearTo loc p ((|p.x| + |p.y| + 1) / 2 ^ 38) ∧ |p.x| + |p.y| ≤ 2 ^ 140 := by
  unfold textLocOf at h
  cases hl : look ms c!"@" with
  | none =>
    rw [hl] at h; cases h
    refine ⟨⟨396, 306⟩, Or.inl ⟨hl, rfl⟩, ?_, by norm_num⟩
    have z : Fl.Near (FP.lit 0 : Fl R) 0 0 := by rw [lit_zero]; exact Fl.near_fin 0
    have l1 := Fl.near_lit hR 396 (S := 512) (by norm_num) (by norm_num) (le_top (by norm_num))
    have l2 := Fl.near_lit hR 306 (S := 512) (by norm_num) (by norm_num) (le_top (by norm_num))
    push_cast at l1 l2
    have m1 := z.add hR l1 (S := 512) (by norm_num) (by norm_num) (le_top (by norm_num))
    have m2 := z.add hR l2 (S := 512) (by norm_num) (by norm_num) (le_top (by norm_num))
    rw [zero_add] at m1 m2
    exact ⟨m1.mono (by norm_num), m2.mono (by norm_num)⟩
  | some m =>
    rw [hl] at h
    have hm := hf m (look_mem hl)
    obtain ⟨nm, v, ln⟩ := m
    cases v with
    | loc l =>
      cases h
      obtain ⟨b1, b2⟩ := hm
      obtain ⟨x, hx, hx2⟩ := (bd_iff R (by norm_num) l.x).mp b1
      obtain ⟨y, hy, hy2⟩ := (bd_iff R (by norm_num) l.y).mp b2
      obtain ⟨lx, ly⟩ := l
      simp only at hx hy
      subst hx hy
      refine ⟨⟨72 * x + 396, 72 * y + 306⟩, Or.inr ⟨_, x, y, hl, rfl, rfl⟩, ⟨?_, ?_⟩, ?_⟩
      · refine (textLoc_near1 hR 396 (c := 396) (by norm_num) (by norm_num) (by norm_num) hx2).mono ?_
        have := abs_nonneg (72 * y + 306)
        have := abs_nonneg (72 * x + 396)
        norm_num; linarith
      · refine (textLoc_near1 hR 306 (c := 306) (by norm_num) (by norm_num) (by norm_num) hy2).mono ?_
        have := abs_nonneg (72 * x + 396)
        have := abs_nonneg (72 * y + 306)
        norm_num; linarith
      · simp only
        have t1 := abs_add_le (72 * x) 396
        have t2 := abs_add_le (72 * y) 306
        rw [abs_mul] at t1 t2
        norm_num at t1 t2 hx2 hy2 ⊢
        linarith
    | pt p => cases h
    | num p => cases h
    | scale a b => cases h
    | str a => cases h

/-- the lines of a text -/
theorem rows_near (p : V2 ℝ) (N : ℕ) (hN : N ≤ 2 ^ 32) (hp : |p.x| + |p.y| ≤ 2 ^ 140) : ∀ (ss : List Str) (k : ℕ) (loc : V2 (Fl R)), k + ss.length ≤ N →
    Fl.Near loc.x p.x (textError N p) → Fl.Near loc.y (p.y - 12 * k) ((k + 1) * (|p.x| + |p.y| + 12 * N + 1) / 2 ^ 38) →
    List.Forall₂ (fun (il : ℕ × Str) t => t.str = il.2 ∧ t.center = false ∧ t.raw = false ∧ V2.NearTo t.at_ ⟨p.x, p.y - 12 * il.1⟩ (textError N p))
      (((ss.zipIdx k).filter fun il => decide (il.1 ≠ [])).map fun il => (il.2, il.1)) (textRows loc ss)
  | [], k, loc, _, _, _ => by simpa [textRows] using List.Forall₂.nil
  | s :: ss, k, loc, hk, hx, hy => by
    set T := |p.x| + |p.y| + 12 * N + 1 with hT
    have hN' : (N : ℝ) ≤ 4294967296 := by exact_mod_cast (show N ≤ 4294967296 by simpa using hN)
    have hk1 : (k : ℝ) + 1 ≤ N := by
      have : k + 1 ≤ N := by simp at hk; omega
      exact_mod_cast this
    have px := abs_nonneg p.x
    have py := abs_nonneg p.y
    have hk0 : (0 : ℝ) ≤ k := Nat.cast_nonneg k
    have hT1 : 1 ≤ T := by rw [hT]; linarith
    have hTb : T ≤ 2 ^ 200 := by rw [hT]; norm_num at hp ⊢; linarith
    have herr : ((k : ℝ) + 1) * T / 2 ^ 38 ≤ textError N p := by
      unfold textError
      rw [← hT]
      apply div_le_div_of_nonneg_right _ (by norm_num)
      exact mul_le_mul_of_nonneg_right (by linarith) (by linarith)
    have hsmall : ((k : ℝ) + 1) * T / 2 ^ 38 ≤ T := by
      rw [div_le_iff₀ (by norm_num), mul_comm T]
      exact mul_le_mul_of_nonneg_right (by norm_num; linarith) (by linarith)
    have l12 := Fl.near_lit hR 12 (S := 16) (by norm_num) (by norm_num) (le_top (by norm_num))
    push_cast at l12
    have hay : |p.y - 12 * (k : ℝ) - 12| ≤ T := by
      have := abs_sub p.y (12 * (k : ℝ) + 12)
      rw [abs_of_nonneg (by linarith : (0 : ℝ) ≤ 12 * (k : ℝ) + 12)] at this
      rw [show p.y - 12 * (k : ℝ) - 12 = p.y - (12 * (k : ℝ) + 12) by ring]
      linarith
    have nx := hy.sub hR l12 (S := 3 * T) (by norm_num at hsmall ⊢; linarith) (by norm_num; linarith)
      (le_trans (by linarith) (b200 : (3 * (2 : ℝ) ^ 200) ≤ 2 ^ 1000))
    have e12 : p.y - 12 * (k : ℝ) - 12 = p.y - 12 * ((k + 1 : ℕ) : ℝ) := by push_cast; ring
    rw [e12] at nx
    have ih := rows_near p N hN hp ss (k + 1) ⟨loc.x, loc.y - FP.lit 12⟩ (by simp at hk; omega) hx (nx.mono (by
      rw [← hT]
      push_cast
      norm_num
      linarith))
    unfold textRows
    by_cases hs : s = []
    · simpa [hs] using ih
    · have := List.Forall₂.cons (R := (fun (il : ℕ × Str) (t : PsText (Fl R)) => t.str = il.2 ∧ t.center = false ∧ t.raw = false ∧
          V2.NearTo t.at_ ⟨p.x, p.y - 12 * il.1⟩ (textError N p))) (a := (k, s)) (b := ⟨loc, s, false, false⟩)
          ⟨rfl, rfl, rfl, hx, hy.mono herr⟩ ih
      simpa [hs] using this
where b200 : (3 * (2 : ℝ) ^ 200) ≤ 2 ^ 1000 := by
        have h : (2 : ℝ) ^ 202 ≤ 2 ^ 1000 := pow_le_pow_right₀ (by norm_num) (by norm_num)
        refine le_trans ?_ h
        norm_num

/-! ## The title -/

theorem f32_near {x : Fl R} {a ε S : ℝ} (hx : Fl.Near x a ε) (hS : |a| + ε ≤ S) (h1 : 1 / 2 ^ 100 ≤ S) (h2 : S ≤ 2 ^ 120) :
    Fl.Near (FP.f32 x) a (ε + S / 2 ^ 22) := by
  obtain ⟨b, rfl, hb⟩ := hx
  have hbS : |b| ≤ S := by
    have := abs_add_le (b - a) a
    rw [sub_add_cancel] at this
    linarith
  have he := hR.err32 b
  have he' : |R.rnd32 b - b| ≤ S / 2 ^ 22 := by
    refine he.trans ?_
    norm_num at h1 ⊢
    linarith
  refine ⟨R.rnd32 b, ?_, ?_⟩
  · show overflow (2 ^ 128) (R.rnd32 b) = _
    apply overflow_fin
    have := abs_add_le (R.rnd32 b - b) b
    rw [sub_add_cancel] at this
    norm_num at h2 he' ⊢
    linarith
  · have := abs_add_le (R.rnd32 b - b) (b - a)
    rw [sub_add_sub_cancel] at this
    linarith

theorem title_near (n : ℕ) (hn : n ≤ 2 ^ 32) :
    Fl.Near (FP.f32 (FP.lit 784 - FP.lit n * FP.lit (kFontSize : ℚ) * FP.lit (6 / 10)) : Fl R) (784 - n * (48 / 10)) ((n + 200) / 2 ^ 19) ∧
    Fl.Near (FP.f32 (FP.f32 (FP.lit 784 - FP.lit n * FP.lit (kFontSize : ℚ) * FP.lit (6 / 10)) - FP.lit 3) : Fl R) (784 - n * (48 / 10) - 3)
      ((n + 200) / 2 ^ 18) := by
  have hN : (n : ℝ) ≤ 4294967296 := by exact_mod_cast (show n ≤ 4294967296 by simpa using hn)
  have h0 : (0 : ℝ) ≤ n := Nat.cast_nonneg n
  have big : ∀ {S : ℝ}, S ≤ 2 ^ 60 → S ≤ 2 ^ 1000 := fun h => h.trans (pow_le_pow_right₀ (by norm_num) (by norm_num))
  have ln := Fl.near_lit hR (n : ℚ) (S := n + 1) (by push_cast; rw [abs_of_nonneg h0]; linarith) (by norm_num; linarith)
    (big (by norm_num; linarith))
  have l8 := Fl.near_lit hR (kFontSize : ℚ) (S := 8) (by norm_num [kFontSize]) (by norm_num) (le_top (by norm_num))
  have l6 := Fl.near_lit hR (6 / 10) (S := 1) (by norm_num) (by norm_num) (le_top (by norm_num))
  have l7 := Fl.near_lit hR 784 (S := 1024) (by norm_num) (by norm_num) (le_top (by norm_num))
  have l3 := Fl.near_lit hR 3 (S := 4) (by norm_num) (by norm_num) (le_top (by norm_num))
  push_cast at ln l8 l6 l7 l3
  rw [show ((kFontSize : ℕ) : ℝ) = 8 by norm_num [kFontSize]] at l8
  have m1 := ((ln.mul hR l8 (A := n) (B := 8) (S := (n + 1) * 10) (by rw [abs_of_nonneg h0]) (by norm_num) (by norm_num; nlinarith) (by norm_num; linarith)
    (big (by norm_num; linarith))).mono (δ := (n + 1) * 40 / 2 ^ 51) (by norm_num; nlinarith))
  have m2 := ((m1.mul hR l6 (A := 8 * n) (B := 1) (S := (n + 1) * 20) (by rw [abs_of_nonneg (by linarith)]; linarith) (by norm_num [abs_of_pos])
    (by norm_num; nlinarith) (by norm_num; linarith)
    (big (by norm_num; linarith))).mono (δ := (n + 1) * 80 / 2 ^ 51) (by norm_num; nlinarith))
  have e : |784 - (n : ℝ) * 8 * (6 / 10)| ≤ 784 + 5 * n := by rw [abs_le]; constructor <;> linarith
  have m3 := (l7.sub hR m2 (S := 5 * n + 800) (by norm_num at e ⊢; linarith) (by norm_num; linarith) (big (by norm_num; linarith))).mono
    (δ := (n + 200) / 2 ^ 30) (by norm_num; linarith)
  have e' : (784 : ℝ) - (n : ℝ) * 8 * (6 / 10) = 784 - n * (48 / 10) := by ring
  rw [e'] at m3 e
  have big' : ∀ {S : ℝ}, S ≤ 2 ^ 60 → S ≤ 2 ^ 120 := fun h => h.trans (pow_le_pow_right₀ (by norm_num) (by norm_num))
  have m4 := (f32_near hR m3 (S := 5 * n + 800) (by norm_num at e ⊢; linarith) (by norm_num; linarith) (big' (by norm_num; linarith))).mono
    (δ := (n + 200) / 2 ^ 19) (by norm_num; linarith)
  refine ⟨m4, ?_⟩
  have e3 : |784 - (n : ℝ) * (48 / 10) - 3| ≤ 787 + 5 * n := by
    have := abs_sub (784 - (n : ℝ) * (48 / 10)) 3
    norm_num at this e ⊢; linarith
  have m5 := (m4.sub hR l3 (S := 6 * n + 800) (by norm_num at e3 ⊢; linarith) (by norm_num; linarith) (big (by norm_num; linarith))).mono
    (δ := (n + 200) / 2 ^ 19 + (n + 200) / 2 ^ 30) (by norm_num; linarith)
  exact (f32_near hR m5 (S := 6 * n + 800) (by norm_num at e3 ⊢; linarith) (by norm_num; linarith) (big' (by norm_num; linarith))).mono
    (by norm_num; linarith)

end
end S2P
