import Verif.Lemmas.PaperDouble
import Verif.Props.AccuracyDim
import Verif.Props.Paper

set_option linter.unusedSectionVars false
set_option linter.unusedVariables false
set_option linter.unusedSimpArgs false

/-! # C76: what is on paper, in double arithmetic -/

namespace S2P
open PS

theorem splitNl_length : ∀ s : Str, (splitNl s).length ≤ s.length + 1
  | [] => by simp [splitNl]
  | c :: s => by
    have ih := splitNl_length s
    unfold splitNl
    split
    · simpa using ih
    · cases h : splitNl s with
      | nil => simp
      | cons a b => rw [h] at ih; simp at ih ⊢; omega

/-- a drawing without dimensions shows no text -/
theorem draw_no_text {α : Type} [FP α] (E : Env α) (stl : Models α) (name : Str) (ms : List (Meta α)) (line : Nat) (c)
    (h : content E stl (.draw name ms [] line) = .ok c) : c.2.1.text = [] := by
  rcases draw_sum E stl name ms [] line c h with ⟨-, h2, -⟩ | ⟨_, _, _, _, _, _, cs, -, hcs, h2, -⟩
  · rw [h2]; rfl
  · cases hcs
    rw [h2]; rfl

section
variable {R : Rounding} (hR : R.Accurate)
include hR

/-- the texts of a text block -/
theorem text_near (E : Env (Fl R)) (stl : Models (Fl R)) (s : Str) (ms : List (Meta (Fl R))) (l : Nat) (hf : ∀ m ∈ ms, m.val.LocBd)
    (hs : s.length < 2 ^ 32) (c) (h : content E stl (.text s ms l) = .ok c) (hc : c.1 = true) :
    ∃ p ls, TextAskedAt ms p ∧ IsLines s ls ∧ c.2.1.lines = [] ∧ c.2.1.arcs = [] ∧
      List.Forall₂ (fun (il : ℕ × Str) t => t.str = il.2 ∧ t.center = false ∧ t.raw = false ∧ V2.NearTo t.at_ ⟨p.x, p.y - 12 * il.1⟩ (textError ls.length p))
        ((ls.zipIdx.filter fun il => decide (il.1 ≠ [])).map fun il => (il.2, il.1)) c.2.1.text := by
  unfold content at h
  simp only [visitDrawable, bind, Except.bind] at h
  obtain ⟨ds, extra, e1, e2, e3⟩ := visitText_out (α := Fl R) s ms l
  rw [e3] at h
  unfold textOut at h
  by_cases hd : ds ≠ []
  · rw [if_pos hd] at h; cases h; cases hc
  rw [if_neg hd] at h
  cases h1 : textLocOf (look ms c!"@") with
  | error a => rw [h1] at h; cases h
  | ok loc =>
    rw [h1] at h
    cases h
    obtain ⟨p, hp, ⟨nx, ny⟩, hb⟩ := textLoc_near hR ms hf loc h1
    have hlen := splitNl_length s
    have hN : (0 : ℝ) ≤ ((splitNl s).length : ℝ) := Nat.cast_nonneg _
    have px := abs_nonneg p.x
    have py := abs_nonneg p.y
    refine ⟨p, splitNl s, hp, splitNl_lines s, rfl, rfl, ?_⟩
    refine rows_near hR p (splitNl s).length (by omega) hb (splitNl s) 0 loc (by omega) (nx.mono ?_) ?_
    · unfold textError
      apply div_le_div_of_nonneg_right _ (by norm_num)
      nlinarith
    · simp only [Nat.cast_zero, mul_zero, sub_zero]
      refine ny.mono ?_
      apply div_le_div_of_nonneg_right _ (by norm_num)
      linarith
end

section
variable (I : IntRounding) (range64 range32 : ℚ → Bool)

theorem paints_plain (F : Fonts) (x : PsText (Ext ℝ)) (m : Mark) (h : PaintsText F x m) (hc : x.center = false) (hr : x.raw = false) :
    ∃ q : V2 ℚ, Six x.at_.x q.x ∧ Six x.at_.y q.y ∧ m = .text q (eol x.str) c!"Courier" 8 := by
  obtain ⟨qx, qy, s1, s2, rfl⟩ := h
  obtain ⟨a, s, c, r⟩ := x
  simp only at hc hr
  subst hc hr
  exact ⟨⟨qx, qy⟩, s1, s2, rfl⟩

/-- what is known of a page, before and after it is printed -/
theorem sheet_near (F : Fonts) (E : Env (Fl (binary64 I range64 range32))) (hS : SortOK E.sorter) (hJ : E.junkM = ⟨V3.zero, V3.zero, V3.zero⟩)
    (stl : Models (Fl (binary64 I range64 range32))) {n : ℕ} (hn : n ≤ 500) (hM : stl.Bd n) (w : World) (models : List ModelN)
    (hl : ∀ name e file, stl.find? (fun e => decide (e.1 = name)) = some e → e.2 = some file → ∃ m ∈ models, m.name = name ∧ Loads E.loadPath w m file)
    (pg : PageN (Fl (binary64 I range64 range32))) (hlo : ∀ x ∈ pg.draws, x.LocBd)
    (hd : ∀ name ms dims line, Drawable.draw name ms dims line ∈ pg.draws → dims = [] ∧ TameView ms ∧ TameScale ms)
    (ht : ∀ t, titled pg.metas t → t.length ≤ 2 ^ 32) (hx : ∀ s ms line, Drawable.text s ms line ∈ pg.draws → s.length < 2 ^ 32)
    (g : GenRes (Fl (binary64 I range64 range32))) (hg : onePage E stl pg = .ok g) (gok : g.ok = true)
    (o : OutPage (Fl (binary64 I range64 range32))) (gp : g.pages = [o]) :
    o.arcs = [] ∧ OutPage.IsFin (K := ℝ) o ∧ (∀ t ∈ o.text, Harmless t) ∧
      ∀ k i a, PaintsPage (K := ℝ) F E k i o a → InkOfModels E.loadPath w models (2 ^ n) pg a ∧ TextsOfPage (cornerLabel E i k) pg a := by
  have hR := binary64_accurate I range64 range32
  obtain ⟨cs, k1, ⟨t, kt, k2⟩, k3⟩ := C58_page E _ pg g hg
  have hall := (k3.1 gok).2.2
  rw [gp] at k2
  injection k2 with k2 _
  have hT := title_near hR t.length (ht t kt)
  have draws : ∀ c ∈ cs, ∃ d ∈ pg.draws, content E stl d = .ok c := fun c hc => by
    obtain ⟨d, hdm, hdc⟩ := forall₂_right k1 c hc
    exact ⟨d, hdm, hdc⟩
  have noarc : o.arcs = [] := by
    rw [k2, List.eq_nil_iff_forall_not_mem]
    intro a ha
    obtain ⟨Q, hQ, ha⟩ := (mem_sum_arcs _).1 ha
    obtain ⟨c, hc, rfl⟩ := List.mem_map.1 hQ
    obtain ⟨d, hdm, hdc⟩ := draws c hc
    cases d with
    | text s ms l => rw [(text_no_lines E _ s ms l c hdc).2] at ha; cases ha
    | draw name ms dims line =>
      obtain ⟨rfl, hv, hs⟩ := hd name ms dims line hdm
      obtain ⟨_, _, _, _, _, -, -, -, d3⟩ := C73_ink I range64 range32 E hS hJ _ hn hM name ms (hlo _ hdm) hv hs line c hdc (hall c hc)
      rw [d3] at ha; cases ha
  -- lines
  have hlines : ∀ l ∈ (OutPage.sum (cs.map (fun c => c.2.1))).lines, ∃ name ms line, Drawable.draw name ms [] line ∈ pg.draws ∧
      ∃ m ∈ models, ∃ file ts k p off, m.name = name ∧ Loads E.loadPath w m file ∧
        NearlyProjects file ms ts k p off (inkError (2 ^ n) k p) ∧ NearSide ts k off (inkError (2 ^ n) k p) l := by
    intro l hl'
    obtain ⟨Q, hQ, ha⟩ := (mem_sum_lines _).1 hl'
    obtain ⟨c, hc, rfl⟩ := List.mem_map.1 hQ
    obtain ⟨d, hdm, hdc⟩ := draws c hc
    cases d with
    | text s ms l => rw [(text_no_lines E _ s ms l c hdc).1] at ha; cases ha
    | draw name ms dims line =>
      obtain ⟨rfl, hv, hs⟩ := hd name ms dims line hdm
      obtain ⟨file, ts, k, p, off, ⟨en, e1, e2⟩, d1, d2, -⟩ :=
        C73_ink I range64 range32 E hS hJ _ hn hM name ms (hlo _ hdm) hv hs line c hdc (hall c hc)
      obtain ⟨m, m1, m2, m3⟩ := hl name en file e1 e2
      exact ⟨name, ms, line, hdm, m, m1, file, ts, k, p, off, m2, m3, d1, d2 l ha⟩
  -- texts
  have htexts : ∀ x ∈ (OutPage.sum (cs.map (fun c => c.2.1))).text, ∃ s ms line, Drawable.text s ms line ∈ pg.draws ∧
      ∃ p ls, ∃ i : ℕ, ∃ l, TextAskedAt ms p ∧ IsLines s ls ∧ ls[i]? = some l ∧ l ≠ [] ∧ x.str = l ∧ x.center = false ∧ x.raw = false ∧
        V2.NearTo x.at_ ⟨p.x, p.y - 12 * i⟩ (textError ls.length p) := by
    intro x hx'
    obtain ⟨Q, hQ, ha⟩ := (mem_sum_text _).1 hx'
    obtain ⟨c, hc, rfl⟩ := List.mem_map.1 hQ
    obtain ⟨d, hdm, hdc⟩ := draws c hc
    cases d with
    | text s ms l =>
      obtain ⟨p, ls, t1, t2, -, -, t3⟩ := text_near hR E stl s ms l (hlo _ hdm) (hx s ms l hdm) c hdc (hall c hc)
      obtain ⟨⟨i, y⟩, hy, j1, j2, j3, j4⟩ := forall₂_right t3 x ha
      obtain ⟨⟨y', i'⟩, hy', e⟩ := List.mem_map.1 hy
      injection e with e1 e2
      subst e1 e2
      obtain ⟨hy1, hy2⟩ := List.mem_filter.1 hy'
      refine ⟨s, ms, l, hdm, p, ls, i', y', t1, t2, ?_, by simpa using hy2, j1, j2, j3, j4⟩
      simpa using List.mem_zipIdx_iff_getElem?.1 hy1
    | draw name ms dims line =>
      obtain ⟨rfl, hv, hs⟩ := hd name ms dims line hdm
      exact absurd ha (by rw [draw_no_text E stl name ms line c hdc]; simp)
  have ho : o.lines = (OutPage.sum (cs.map (fun c => c.2.1))).lines ++ (addHeader (OutPage.empty) t).lines ∧
      o.text = (OutPage.sum (cs.map (fun c => c.2.1))).text ++ (addHeader (OutPage.empty) t).text := by
    rw [k2]; exact ⟨rfl, rfl⟩
  have lit : ∀ z : ℤ, |z| < 2 ^ 53 → ∀ (ε : ℝ), 0 ≤ ε → Fl.Near (FP.lit (z : ℚ) : Fl (binary64 I range64 range32)) z ε := by
    intro z hz ε he
    rw [lit_int I range64 range32 z hz]
    exact (Fl.near_fin _).mono he
  have hε : (0 : ℝ) ≤ (t.length + 200) / 2 ^ 18 := by positivity
  have n5 := lit 5 (by norm_num) _ hε
  have n8 := lit 8 (by norm_num) _ hε
  have n16 := lit 16 (by norm_num) _ hε
  have n787 := lit 787 (by norm_num) _ hε
  push_cast at n5 n8 n16 n787
  have e16 : ((kFontSize : ℚ) + 8) = 16 := by norm_num [kFontSize]
  have hhead : (addHeader (OutPage.empty) t : OutPage (Fl (binary64 I range64 range32))).lines =
      [⟨⟨FP.f32 (FP.f32 (FP.lit 784 - FP.lit t.length * FP.lit (kFontSize : ℚ) * FP.lit (6 / 10)) - FP.lit 3), FP.lit 5⟩,
        ⟨FP.f32 (FP.f32 (FP.lit 784 - FP.lit t.length * FP.lit (kFontSize : ℚ) * FP.lit (6 / 10)) - FP.lit 3), FP.lit 16⟩⟩,
       ⟨⟨FP.f32 (FP.f32 (FP.lit 784 - FP.lit t.length * FP.lit (kFontSize : ℚ) * FP.lit (6 / 10)) - FP.lit 3), FP.lit 16⟩, ⟨FP.lit 787, FP.lit 16⟩⟩] := by
    rw [← e16]; rfl
  have hheadt : (addHeader (OutPage.empty) t : OutPage (Fl (binary64 I range64 range32))).text =
      [⟨⟨FP.f32 (FP.lit 784 - FP.lit t.length * FP.lit (kFontSize : ℚ) * FP.lit (6 / 10)), FP.lit 8⟩, t, false, false⟩] := rfl
  have hT1 : Fl.Near _ _ ((t.length + 200) / 2 ^ 18) := hT.1.mono (by
    apply div_le_div_of_nonneg_left (by positivity) (by norm_num) (by norm_num))
  rw [hhead, hheadt] at ho
  have lineFin : ∀ l ∈ o.lines, ∃ a b ε, V2.NearTo l.o a ε ∧ V2.NearTo l.t b ε := by
    intro l hl'
    rw [ho.1] at hl'
    rcases List.mem_append.1 hl' with h | h
    · obtain ⟨_, _, _, -, _, -, _, _, _, _, _, -, -, -, e, u, v, -, -, -, -, -, h1, h2⟩ := hlines l h
      exact ⟨_, _, _, h1, h2⟩
    · simp only [List.mem_cons, List.not_mem_nil, or_false] at h
      rcases h with rfl | rfl
      · exact ⟨⟨_, _⟩, ⟨_, _⟩, _, ⟨hT.2, n5⟩, ⟨hT.2, n16⟩⟩
      · exact ⟨⟨_, _⟩, ⟨_, _⟩, _, ⟨hT.2, n16⟩, ⟨n787, n16⟩⟩
  have textFin : ∀ x ∈ o.text, (∃ a ε, V2.NearTo x.at_ a ε) ∧ x.raw = false := by
    intro x hx'
    rw [ho.2] at hx'
    rcases List.mem_append.1 hx' with h | h
    · obtain ⟨_, _, _, -, _, _, _, _, -, -, -, -, -, -, h2, h1⟩ := htexts x h
      exact ⟨⟨_, _, h1⟩, h2⟩
    · simp only [List.mem_cons, List.not_mem_nil, or_false] at h
      subst h
      exact ⟨⟨⟨_, _⟩, _, hT1, n8⟩, rfl⟩
  refine ⟨noarc, ⟨?_, ?_, ?_⟩, ?_, ?_⟩
  · intro l hl'
    obtain ⟨_, _, _, h1, h2⟩ := lineFin l hl'
    exact ⟨nearTo_isFin h1, nearTo_isFin h2⟩
  · intro a ha
    have : a ∈ o.arcs := ha
    rw [noarc] at this; cases this
  · intro x hx'
    obtain ⟨⟨_, _, h1⟩, -⟩ := textFin x hx'
    exact nearTo_isFin h1
  · intro x hx' hr
    rw [(textFin x hx').2] at hr; cases hr
  · rintro k i a ⟨mt, ma, ml, rfl, ft, fa, fl⟩
    have hma : ma = [] := by
      change List.Forall₂ PaintsArc o.arcs ma at fa
      rw [noarc] at fa; cases fa; rfl
    subst hma
    change List.Forall₂ _ o.text mt at ft
    change List.Forall₂ _ o.lines ml at fl
    have plain := paints_plain F
    constructor
    · refine ⟨t, kt, ?_⟩
      intro path hpath
      have hmt : Mark.stroke path ∉ mt := by
        intro hin
        obtain ⟨t, -, _, _, -, -, ht⟩ := forall₂_right ft _ hin
        cases ht
      simp only [List.append_assoc, List.mem_append, List.mem_cons, List.not_mem_nil, or_false, false_or, reduceCtorEq] at hpath
      rcases hpath with h | h | h | h
      · exact Or.inl h
      · cases hcl : cornerLabel (α := Ext ℝ) E i k <;> rw [hcl] at h <;> simp at h
      · exact absurd h hmt
      · right
        obtain ⟨l, hl', hls⟩ := forall₂_right fl _ h
        rw [ho.1] at hl'
        rcases List.mem_append.1 hl' with h | h
        · right
          obtain ⟨name, ms, line, j1, m, m1, file, ts, k, p, off, j2, j3, j4, e, u, v, j5, j6, j7, j8, j9, h1, h2⟩ := hlines l h
          exact ⟨name, ms, line, j1, m, m1, file, ts, k, p, off, j2, j3, j4, e, u, v, j5, j6, j7, j8, j9, line_near h1 h2 hls⟩
        · left
          simp only [List.mem_cons, List.not_mem_nil, or_false] at h
          rcases h with rfl | rfl
          · left
            exact line_near (a := ⟨_, _⟩) (b := ⟨_, _⟩) ⟨hT.2, n5⟩ ⟨hT.2, n16⟩ hls
          · right
            exact line_near (a := ⟨_, _⟩) (b := ⟨_, _⟩) ⟨hT.2, n16⟩ ⟨n787, n16⟩ hls
    · constructor
      · refine ⟨t, kt, ?_⟩
        intro at_ s font size hin
        have hml : Mark.text at_ s font size ∉ ml := by
          intro hin
          obtain ⟨t, -, _, _, _, _, -, -, -, -, ht⟩ := forall₂_right fl _ hin
          cases ht
        simp only [List.append_assoc, List.mem_append, List.mem_cons, List.not_mem_nil, or_false, false_or, reduceCtorEq] at hin
        rcases hin with h | h | h | h
        · simp [border] at h
        · left
          change _ ∈ ((cornerLabel (α := Fl (binary64 I range64 range32)) E i k).map _).toList at h
          cases hcl : cornerLabel E i k with
          | none => rw [hcl] at h; simp at h
          | some l => rw [hcl] at h; exact ⟨l, rfl, by simpa using h⟩
        · right
          obtain ⟨x, hx', hxs⟩ := forall₂_right ft _ h
          rw [ho.2] at hx'
          rcases List.mem_append.1 hx' with h | h
          · right
            obtain ⟨s, ms, line, j1, p, ls, i, l, j2, j3, j4, j5, j6, j7, j8, j9⟩ := htexts x h
            obtain ⟨q, s1, s2, e⟩ := plain x _ hxs j7 j8
            rw [j6] at e
            exact ⟨s, ms, line, j1, p, ls, i, l, q, j2, j3, j4, j5, ⟨printed j9.1 s1, printed j9.2 s2⟩, e⟩
          · left
            simp only [List.mem_cons, List.not_mem_nil, or_false] at h
            subst h
            obtain ⟨q, s1, s2, e⟩ := plain _ _ hxs rfl rfl
            injection e with e1 e2 e3 e4
            subst e1
            exact ⟨⟨printed hT1 s1, printed n8 s2⟩, e2, e3, e4⟩
        · exact absurd h hml
      · intro s ms line hdm
        obtain ⟨c, hc, hdc⟩ := forall₂_mem k1 hdm
        obtain ⟨p, ls, t1, t2, -, -, t3⟩ := text_near hR E stl s ms line (hlo _ hdm) (hx s ms line hdm) c hdc (hall c hc)
        refine ⟨p, ls, t1, t2, ?_⟩
        intro i' l hil hne
        have hmem : (i', l) ∈ (ls.zipIdx.filter fun il => decide (il.1 ≠ [])).map fun il => (il.2, il.1) := by
          refine List.mem_map.2 ⟨(l, i'), List.mem_filter.2 ⟨?_, by simpa using hne⟩, rfl⟩
          exact List.mem_zipIdx_iff_getElem?.2 hil
        obtain ⟨x, hx', j1, j2, j3, j4⟩ := forall₂_mem t3 hmem
        have hxo : x ∈ o.text := by
          rw [ho.2]
          exact List.mem_append_left _ ((mem_sum_text _).2 ⟨c.2.1, List.mem_map.2 ⟨c, hc, rfl⟩, hx'⟩)
        obtain ⟨m, hm, hxm⟩ := forall₂_mem ft hxo
        obtain ⟨q, s1, s2, e⟩ := plain x _ hxm j2 j3
        rw [j1] at e
        subst e
        exact ⟨q, ⟨printed j4.1 s1, printed j4.2 s2⟩, by simp [hm]⟩

theorem sheets_indexed (F : Fonts) (E : Env (Ext ℝ)) (n : Nat) : ∀ (Ps : List (OutPage (Ext ℝ))) (i : Nat) (ms : List Mark), PaintsPages F E n i Ps ms →
    ∃ sheets, ms = sheets.flatten ∧ List.Forall₂ (fun (P : OutPage (Ext ℝ) × ℕ) a => PaintsPage F E n P.2 P.1 a) (Ps.zipIdx i) sheets
  | [], i, ms, h => ⟨[], by simpa [PaintsPages] using h, .nil⟩
  | P :: Ps, i, ms, ⟨a, b, e, h1, h2⟩ => by
    obtain ⟨sheets, rfl, h3⟩ := sheets_indexed F E n Ps (i + 1) b h2
    exact ⟨a :: sheets, by rw [e]; rfl, .cons h1 h3⟩

theorem sheets_meet {A B C : Type} {S : ℕ → ℕ → B → C → Prop} {Q : ℕ → ℕ → A → C → Prop} (n : ℕ) (as : List A) (bs : List B)
    (each : List.Forall₂ (fun a b => ∀ n i c, S n i b c → Q n i a c) as bs) : ∀ (i : ℕ) (cs : List C),
    List.Forall₂ (fun (b : B × ℕ) c => S n b.2 b.1 c) (bs.zipIdx i) cs → List.Forall₂ (fun (a : A × ℕ) c => Q n a.2 a.1 c) (as.zipIdx i) cs := by
  induction each with
  | nil => intro i cs h; cases h; exact .nil
  | cons h _ ih =>
    intro i cs h'
    cases h' with
    | cons h1 h2 => exact .cons (h _ _ _ h1) (ih _ _ h2)

/-- **C76.** In IEEE 754 double arithmetic, whatever the direction of rounding: if a conversion succeeds, what it writes, run as a PostScript program, puts
one sheet after the other on paper, one for each page of the script.  On each, every stroke but the border and the title's box is next to a side of a facet
seen in a drawing of the page, and the texts are the corner's label, the title and the texts of the page, each next to its place.  "Next to" counts both
the rounding of the computation and printing to six digits.  The script has no dimensions, views as named or with angles up to 1024°, scales not over zero,
and no text longer than 2^32; the numbers on the vertex lines of the model files are of size at most 2^n. -/
theorem C76_paper (F : Fonts) (E : Env (Fl (binary64 I range64 range32))) (hS : SortOK E.sorter) (hJ : E.junkM = ⟨V3.zero, V3.zero, V3.zero⟩)
    (w : World) (src script : Str) {n : ℕ} (hn : n ≤ 500) (r : RunRes) (h : scriptToPS E w src script = .ok r) (hok : r.ok = true)
    (hw : ∀ doc : Doc (Fl (binary64 I range64 range32)), parse script = .ok (some doc) → SaneModels n E.loadPath w doc.models)
    (hd : ∀ doc : Doc (Fl (binary64 I range64 range32)), parse script = .ok (some doc) → ∀ pg ∈ doc.pages, ∀ name ms dims line,
      Drawable.draw name ms dims line ∈ pg.draws → dims = [] ∧ TameView ms ∧ TameScale ms)
    (ht : ∀ doc : Doc (Fl (binary64 I range64 range32)), parse script = .ok (some doc) → ∀ pg ∈ doc.pages, (∀ t, titled pg.metas t → t.length ≤ 2 ^ 32) ∧
      ∀ s ms line, Drawable.text s ms line ∈ pg.draws → s.length < 2 ^ 32)
    (h1 : OneLine E.name) (h2 : OneLine src) (h3 : OneLine E.now) :
    ∃ (doc : Doc (Fl (binary64 I range64 range32))) (sheets : List (List Mark)), parse script = .ok (some doc) ∧ Paints F r.out sheets.flatten ∧
      List.Forall₂ (fun (pg : PageN (Fl (binary64 I range64 range32)) × ℕ) P => InkOfModels E.loadPath w doc.models (2 ^ n) pg.1 P ∧
        TextsOfPage (cornerLabel E pg.2 doc.pages.length) pg.1 P) (doc.pages.zipIdx 1) sheets := by
  obtain ⟨doc, fs, outs, hp, -, hl, hf, ho⟩ := (C48_all_or_nothing E w src script r h).2.1 hok
  have hM : Models.Bd n (List.zipWith (fun (m : ModelN) f => (m.name, some f)) doc.models fs) := by
    have hw' := hw doc hp
    clear * - hl hw' hn
    generalize doc.models = dm at *
    induction hl with
    | nil => intro e he; simp at he
    | @cons m f ms fs hmf _ ih =>
      intro e he
      simp only [List.zipWith_cons_cons, List.mem_cons] at he
      rcases he with rfl | he
      · obtain ⟨ps, x, p1, p2, hx⟩ := hmf
        exact ⟨f, rfl, sane_bd (by omega) (hw' m (by simp) ps x p1 p2) f hx⟩
      · exact ih (fun m' hm' => hw' m' (by simp [hm'])) e he
  have hlo := parse_locBd script doc hp
  have hd' := hd doc hp
  have ht' := ht doc hp
  have each : List.Forall₂ (fun pg (o : OutPage (Fl (binary64 I range64 range32))) => o.arcs = [] ∧ OutPage.IsFin (K := ℝ) o ∧ (∀ t ∈ o.text, Harmless t) ∧
      ∀ k i a, PaintsPage (K := ℝ) F E k i o a → InkOfModels E.loadPath w doc.models (2 ^ n) pg a ∧ TextsOfPage (cornerLabel E i k) pg a) doc.pages outs := by
    generalize doc.pages = pgs at *
    clear ho
    induction hf with
    | nil => exact .nil
    | @cons pg o pgs outs ho _ ih =>
      refine .cons ?_ (ih (fun pg hpg => hlo pg (List.mem_cons_of_mem _ hpg)) (fun pg hpg => hd' pg (List.mem_cons_of_mem _ hpg))
        (fun pg hpg => ht' pg (List.mem_cons_of_mem _ hpg)))
      obtain ⟨g, hg, gok, gp⟩ := ho
      exact sheet_near I range64 range32 F E hS hJ _ hn hM w doc.models (fun name e file e1 e2 => find_loads E.loadPath w _ _ hl name e e1 file e2) pg
        (hlo pg List.mem_cons_self) (hd' pg List.mem_cons_self) (ht' pg List.mem_cons_self).1 (ht' pg List.mem_cons_self).2 g hg gok o gp
  have mem : ∀ o ∈ outs, ∃ pg ∈ doc.pages, _ := fun o ho => forall₂_right each o ho
  rw [renderPages_ext I range64 range32 E src outs (fun o ho => (mem o ho).choose_spec.2.1)] at ho
  obtain ⟨ms, k1, k2⟩ := C35_paints F (K := ℝ) E src outs (fun o ho => (mem o ho).choose_spec.2.2.1) (fun o ho => (mem o ho).choose_spec.2.2.2.1) h1 h2 h3
  obtain ⟨sheets, rfl, k3⟩ := sheets_indexed F E _ outs 1 ms k2
  refine ⟨doc, sheets, hp, by rw [ho]; exact k1, ?_⟩
  rw [each.length_eq]
  exact sheets_meet (S := fun n i o a => PaintsPage (K := ℝ) F E n i o a)
    (Q := fun k i pg P => InkOfModels E.loadPath w doc.models (2 ^ n) pg P ∧ TextsOfPage (cornerLabel E i k) pg P) outs.length _ _
    (each.imp fun _ _ h => h.2.2.2) _ _ k3

/-- **C76**, of the program: after exit status 0 the output file holds such a program. -/
theorem C76_program (F : Fonts) (E : Env (Fl (binary64 I range64 range32))) (hS : SortOK E.sorter) (hJ : E.junkM = ⟨V3.zero, V3.zero, V3.zero⟩)
    (w : World) (script output : Str) (hs : w.ident script ≠ w.ident output)
    (hm : ∀ text (doc : Doc (Fl (binary64 I range64 range32))), w.read script = some text → parse text = .ok (some doc) → ∀ m ∈ doc.models, ∀ ps,
      Places E.loadPath m.source ps → ∀ p ∈ ps, w.ident p ≠ w.ident output)
    {n : ℕ} (hn : n ≤ 500)
    (hw : ∀ text (doc : Doc (Fl (binary64 I range64 range32))), w.read script = some text → parse text = .ok (some doc) →
      SaneModels n E.loadPath w doc.models ∧ ∀ pg ∈ doc.pages, (∀ t, titled pg.metas t → t.length ≤ 2 ^ 32) ∧
        (∀ s ms line, Drawable.text s ms line ∈ pg.draws → s.length < 2 ^ 32) ∧
        ∀ name ms dims line, Drawable.draw name ms dims line ∈ pg.draws → dims = [] ∧ TameView ms ∧ TameScale ms)
    (h1 : OneLine E.name) (h2 : OneLine script) (h3 : OneLine E.now) (h0 : (mainRun E w script output).1 = .ok 0) :
    ∃ (text out : Str) (doc : Doc (Fl (binary64 I range64 range32))) (sheets : List (List Mark)), w.read script = some text ∧ parse text = .ok (some doc) ∧
      (mainRun E w script output).2.read output = some out ∧ Paints F out sheets.flatten ∧
      List.Forall₂ (fun (pg : PageN (Fl (binary64 I range64 range32)) × ℕ) P => InkOfModels E.loadPath w doc.models (2 ^ n) pg.1 P ∧
        TextsOfPage (cornerLabel E pg.2 doc.pages.length) pg.1 P) (doc.pages.zipIdx 1) sheets := by
  obtain ⟨-, -, -, text, r, k1, k2, k3, -, k4⟩ := (C49_exit_partial E w script output hs hm).1.1 h0
  obtain ⟨doc, sheets, j1, j2, j3⟩ := C76_paper I range64 range32 F E hS hJ w script text hn r k2 k3 (fun doc hd => (hw text doc k1 hd).1)
    (fun doc hd pg hpg => ((hw text doc k1 hd).2 pg hpg).2.2) (fun doc hd pg hpg => ⟨((hw text doc k1 hd).2 pg hpg).1, ((hw text doc k1 hd).2 pg hpg).2.1⟩) h1 h2 h3
  exact ⟨text, r.out, doc, sheets, k1, j1, k4, j2, j3⟩
end

/-! ## The premises occur -/

/-- rounding to nearest -/
abbrev F64 : Type := Fl (binary64 .nearest (fun _ => true) (fun _ => true))

theorem fl_denotes (a b c : Nat) (ha : a < 10) (hb : b < 10) (hc : c < 10) : (⟨num a, num b, num c⟩ : Num3).Wf ∧
    (⟨num a, num b, num c⟩ : Num3).Denotes (⟨(Ext.fin (a : ℝ) : Ext ℝ), (Ext.fin (b : ℝ) : Ext ℝ), (Ext.fin (c : ℝ) : Ext ℝ)⟩ : V3 F64) := by
  have key : ∀ m < 10, FP.ofDec64 (α := F64) (num m).value = some (Ext.fin (m : ℝ) : Ext ℝ) := by
    intro m hm
    have h := lit_int .nearest (fun _ => true) (fun _ => true) m (by
      have : ((m : ℤ)) < 10 := by exact_mod_cast hm
      rw [abs_of_nonneg (by positivity)]
      exact this.trans (by norm_num))
    have e : (num m).value = ((m : ℤ) : ℚ) := by
      rw [num, (C17_decimals false m 0).2]; simp
    rw [e]
    show (match (FP.lit ((m : ℤ) : ℚ) : F64) with
      | (.fin x : Ext ℝ) => if true = true then some (Ext.fin x : Ext ℝ) else none
      | _ => none) = _
    rw [h]
    simp
  exact ⟨⟨(C17_decimals _ _ _).1, (C17_decimals _ _ _).1, (C17_decimals _ _ _).1⟩, key a ha, key b hb, key c hc⟩

theorem fl_file : ∃ f : STLFile F64, make (stlText c!"p" [paperTri]) = .ok (some f) ∧ f.facets.length = 1 := by
  obtain ⟨f, hf, hv⟩ := C17_round_trip (α := F64) FPRound.conv c!"p" (by decide) [paperTri]
    [(⟨(Ext.fin ((0 : ℕ) : ℝ) : Ext ℝ), (Ext.fin ((0 : ℕ) : ℝ) : Ext ℝ), (Ext.fin ((1 : ℕ) : ℝ) : Ext ℝ)⟩,
      ⟨(Ext.fin ((0 : ℕ) : ℝ) : Ext ℝ), (Ext.fin ((0 : ℕ) : ℝ) : Ext ℝ), (Ext.fin ((0 : ℕ) : ℝ) : Ext ℝ)⟩,
      ⟨(Ext.fin ((4 : ℕ) : ℝ) : Ext ℝ), (Ext.fin ((0 : ℕ) : ℝ) : Ext ℝ), (Ext.fin ((0 : ℕ) : ℝ) : Ext ℝ)⟩,
      ⟨(Ext.fin ((0 : ℕ) : ℝ) : Ext ℝ), (Ext.fin ((3 : ℕ) : ℝ) : Ext ℝ), (Ext.fin ((0 : ℕ) : ℝ) : Ext ℝ)⟩)]
    (.cons ⟨(fl_denotes 0 0 1 (by norm_num) (by norm_num) (by norm_num)).1, (fl_denotes 0 0 0 (by norm_num) (by norm_num) (by norm_num)).1,
      (fl_denotes 4 0 0 (by norm_num) (by norm_num) (by norm_num)).1, (fl_denotes 0 3 0 (by norm_num) (by norm_num) (by norm_num)).1,
      (fl_denotes 0 0 1 (by norm_num) (by norm_num) (by norm_num)).2, (fl_denotes 0 0 0 (by norm_num) (by norm_num) (by norm_num)).2,
      (fl_denotes 4 0 0 (by norm_num) (by norm_num) (by norm_num)).2, (fl_denotes 0 3 0 (by norm_num) (by norm_num) (by norm_num)).2⟩ .nil) (by
      intro v hv
      simp only [List.mem_singleton] at hv
      subst hv
      have h0 : (FP.lit 0 : F64) = (.fin 0 : Ext ℝ) := lit_zero _
      simp only [V3.eqv, V3.zero, h0]
      have : FP.eq (α := F64) (Ext.fin ((1 : ℕ) : ℝ) : Ext ℝ) (Ext.fin 0 : Ext ℝ) = false := by
        show Ext.eq (K := ℝ) _ _ = false
        simp [Ext.eq]
      rw [this]
      simp)
  exact ⟨f, hf, by simpa using hv.length_eq.symm⟩

def oneDraw64 (o : Except Abort (Option (Doc F64))) : Bool :=
  match o with
  | .ok (some ⟨[⟨n, s, _⟩], [⟨[], [.draw n' [] [] _], _⟩]⟩) => n = c!"m" && s = c!"/x" && n' = c!"m"
  | _ => false

theorem fl_doc : ∃ (doc : Doc F64) (a b c : Nat), parse c!"load m=\"/x\";page{draw m{}}" = .ok (some doc) ∧
    doc = ⟨[⟨c!"m", c!"/x", a⟩], [⟨[], [.draw c!"m" [] [] b], c⟩]⟩ := by
  have h : oneDraw64 (parse c!"load m=\"/x\";page{draw m{}}") = true := by decide +kernel
  unfold oneDraw64 at h
  split at h
  · rename_i heq
    simp only [Bool.and_eq_true, decide_eq_true_eq] at h
    obtain ⟨⟨rfl, rfl⟩, rfl⟩ := h
    exact ⟨_, _, _, _, heq, rfl⟩
  · cases h

theorem SaneFile.mono {n k : Nat} {x : Str} (h : SaneFile n x) (hk : n ≤ k) : SaneFile k x := by
  refine ⟨h.full, fun ls hl l hll v hv => ?_⟩
  have e : (2 : ℚ) ^ n ≤ 2 ^ k := pow_le_pow_right₀ (by norm_num) hk
  obtain ⟨a, b, c⟩ := h.small ls hl l hll v hv
  exact ⟨a.trans e, b.trans e, c.trans e⟩

theorem fl_sane : SaneFile 10 (stlText c!"p" [paperTri]) := saneB_ok _ _ (by decide +kernel)

theorem fl_saneModels_of (w : World) {text : Str} {n : ℕ} (hw : w.read c!"/x" = some text) (hs : SaneFile n text) (a : Nat) :
    SaneModels n flEnv.loadPath w [⟨c!"m", c!"/x", a⟩] := by
  intro m hm ps content hps ⟨u, p, v, q1, q2, q3⟩
  simp only [List.mem_singleton] at hm; subst hm
  rw [paper_places ps hps] at q1
  have : p = c!"/x" := by
    have : p ∈ u ++ p :: v := by simp
    rw [← q1] at this
    simpa using this
  subst this
  rw [hw] at q3; cases q3
  exact hs

theorem fl_saneModels (w : World) (hw : w.read c!"/x" = some (stlText c!"p" [paperTri])) (a : Nat) : SaneModels 10 flEnv.loadPath w [⟨c!"m", c!"/x", a⟩] :=
  fl_saneModels_of w hw fl_sane a

theorem fl_run_of (w : World) {text : Str} (hw : w.read c!"/x" = some text) (hsane : SaneFile 10 text) {f : STLFile F64} (hf : make text = .ok (some f)) :
    ∃ r, scriptToPS flEnv w c!"s" c!"load m=\"/x\";page{draw m{}}" = .ok r ∧ r.ok = true := by
  obtain ⟨d, a, b, c, hp, rfl⟩ := fl_doc
  have hbd : f.Bd 10 := sane_bd (by norm_num) hsane f hf
  have hM : Models.Bd 10 [(c!"m", some f)] := by
    intro e he
    simp only [List.mem_singleton] at he
    subst he
    exact ⟨_, rfl, hbd⟩
  obtain ⟨r, hr⟩ := C62_run flEnv insSorter_ok rfl w c!"s" c!"load m=\"/x\";page{draw m{}}" (by intro a h; rw [hp] at h; cases h) (by
    intro doc hd
    rw [hp] at hd; cases hd
    intro m hm ps x h1 h2
    exact (fl_saneModels_of w hw hsane a m hm ps x h1 h2).mono (by norm_num))
  have hload : Loads flEnv.loadPath w ⟨c!"m", c!"/x", a⟩ f := ⟨[c!"/x"], _, Or.inl ⟨rfl, rfl⟩, ⟨[], c!"/x", [], rfl, by simp, hw⟩, hf⟩
  refine ⟨r, hr, ?_⟩
  rw [(C48_all_or_nothing flEnv w _ _ r hr).1]
  obtain ⟨cc, hc⟩ := content_bd flEnv insSorter_ok rfl [(c!"m", some f)] (k := 10) (by norm_num) hM (.draw c!"m" [] [] b)
    (by simp [Drawable.LocBd]) (by intro m hm; simp at hm)
  have hc1 : cc.1 = true := by
    obtain ⟨proj, ls, g1, g2, -, g3, -⟩ := turned_bd (n := 10) (by norm_num) flEnv.sorter insSorter_ok _ hbd matZP
      (viewOf_bd (none : Option (Meta F64)) (by simp) matZP rfl)
    rcases draw_sum _ _ _ _ _ _ cc hc with ⟨-, -, -, h⟩ | ⟨_, _, _, _, _, _, cs, -, hcs, -, h, -⟩
    · exact absurd ⟨_, _, _, _, _, _, ⟨by simp, rfl, rfl, rfl, ⟨_, rfl, rfl⟩, g1, by rw [g2]; exact g3⟩⟩ h
    · cases hcs
      exact h.2 ⟨by simp, by simp⟩
  obtain ⟨g, hg⟩ := generatePages_ok flEnv [(c!"m", some f)] ⟨[], [⟨[], [.draw c!"m" [] [] b], c⟩]⟩ [] (by
    intro pg hpg x hx
    simp only [List.mem_singleton] at hpg; subst hpg
    simp only [List.mem_singleton] at hx; subst hx
    exact ⟨cc, hc⟩)
  obtain ⟨cs, k1, ⟨t, -, k2⟩, k3⟩ := C58_page flEnv [(c!"m", some f)] ⟨[], [.draw c!"m" [] [] b], c⟩ g hg
  have gok : g.ok = true := by
    rw [k3]
    refine ⟨⟨by simp, by simp, by simp⟩, by simp [nameIsString, look], ?_⟩
    intro c' hc'
    obtain ⟨d, hd, e⟩ := forall₂_right k1 c' hc'
    simp only [List.mem_singleton] at hd; subst hd
    rw [hc] at e; cases e; exact hc1
  exact ⟨_, _, [f], _, hp, by simp, .cons hload .nil, .cons ⟨g, hg, gok, k2⟩ .nil, rfl⟩

theorem fl_run (w : World) (hw : w.read c!"/x" = some (stlText c!"p" [paperTri])) :
    ∃ r, scriptToPS flEnv w c!"s" c!"load m=\"/x\";page{draw m{}}" = .ok r ∧ r.ok = true := by
  obtain ⟨f, hf, -⟩ := fl_file
  exact fl_run_of w hw fl_sane hf

/-- a run of the program, in double arithmetic with rounding to nearest, that meets the premises of `C76_program` -/
example : SortOK flEnv.sorter ∧ flEnv.junkM = ⟨V3.zero, V3.zero, V3.zero⟩ ∧ paperDisk.ident c!"s" ≠ paperDisk.ident c!"o" ∧
    (∀ text (doc : Doc F64), paperDisk.read c!"s" = some text → parse text = .ok (some doc) →
      (∀ m ∈ doc.models, ∀ ps, Places flEnv.loadPath m.source ps → ∀ p ∈ ps, paperDisk.ident p ≠ paperDisk.ident c!"o") ∧
      SaneModels 10 flEnv.loadPath paperDisk doc.models ∧ ∀ pg ∈ doc.pages, (∀ t, titled pg.metas t → t.length ≤ 2 ^ 32) ∧
        (∀ s ms line, Drawable.text s ms line ∈ pg.draws → s.length < 2 ^ 32) ∧
        ∀ name ms dims line, Drawable.draw name ms dims line ∈ pg.draws → dims = [] ∧ TameView ms ∧ TameScale ms) ∧
    OneLine flEnv.name ∧ OneLine c!"s" ∧ OneLine flEnv.now ∧ (mainRun flEnv paperDisk c!"s" c!"o").1 = .ok 0 := by
  refine ⟨insSorter_ok, rfl, by decide, ?_, by unfold OneLine; decide, by unfold OneLine; decide, by unfold OneLine; decide, ?_⟩
  · intro text doc ht hd
    obtain ⟨d, a, b, c, hp, rfl⟩ := fl_doc
    rw [paper_read] at ht; cases ht
    rw [hp] at hd; cases hd
    refine ⟨?_, fl_saneModels paperDisk rfl a, ?_⟩
    · intro m hm ps hps p hpp
      simp only [List.mem_singleton] at hm; subst hm
      rw [paper_places ps hps, List.mem_singleton] at hpp
      subst hpp; decide
    · intro pg hpg
      simp only [List.mem_singleton] at hpg; subst hpg
      refine ⟨?_, by simp, ?_⟩
      · intro t ht
        simp [titled, look] at ht
        subst ht; simp
      · intro name ms dims line h
        simp at h
        obtain ⟨-, rfl, rfl, -⟩ := h
        refine ⟨rfl, by simp [TameView, look], ?_⟩
        intro a b h
        have : (a, b) = ((1, 1) : Int × Int) := by
          simp only [look, scaleOf] at h
          cases h; rfl
        cases this; norm_num
  · obtain ⟨r, hr, hok⟩ := fl_run (paperDisk.write c!"o" []) rfl
    have hread : (paperDisk.write c!"o" []).read c!"s" = some c!"load m=\"/x\";page{draw m{}}" := rfl
    unfold mainRun
    rw [if_neg (by decide), if_neg (by decide), if_neg (by decide)]
    simp only [hread, hr, hok, if_true]

end S2P
