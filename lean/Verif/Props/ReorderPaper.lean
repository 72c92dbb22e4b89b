import Verif.Props.Reorder
import Verif.Props.Paint

set_option linter.unusedSectionVars false
set_option linter.unusedVariables false
set_option linter.unusedSimpArgs false

/-! # C99, on paper -/

namespace S2P
namespace PS
variable {K : Type} [Field K] [LinearOrder K] [IsStrictOrderedRing K] [FloorRing K] [Trans K]

/-- the number printed, as it is read back -/
def numAt (a : Ext K) : ℚ := (readNum (FP.g6 a)).getD 0

theorem reads_numAt {a : Ext K} (h : a.IsFin) : readNum (FP.g6 a) = some (numAt a) := by
  obtain ⟨q, hq, -⟩ := reads_six h
  rw [numAt, hq]
  rfl

def numDeg (a : Ext K) : ℚ := (readNum (FP.g6 (a * FP.lit 180 / piLit))).getD 0

theorem reads_numDeg {a : Ext K} (h : a.IsFin) : readNum (FP.g6 (a * FP.lit 180 / piLit)) = some (numDeg a) := by
  obtain ⟨q, hq, -⟩ := reads_degrees h
  rw [numDeg, hq]
  rfl

variable (F : Fonts)

def textMark (t : PsText (Ext K)) : Mark :=
  .text (if t.center then ⟨numAt t.at_.x - (F.width c!"Courier" 8 (shown t)).x / 2, numAt t.at_.y - (F.bbox c!"Courier").2.2.2 * 8 / 3200⟩ else ⟨numAt t.at_.x, numAt t.at_.y⟩) (shown t) c!"Courier" 8
def arcMark (a : Arc (Ext K)) : Mark := .stroke [.arc ⟨numAt a.center.x, numAt a.center.y⟩ (numAt a.r) (numDeg a.start) (numDeg a.stop)]
def lineMark (l : Line (Ext K)) : Mark := .stroke [.move ⟨numAt l.o.x, numAt l.o.y⟩, .line ⟨numAt l.t.x, numAt l.t.y⟩]

theorem run_texts_eq (ts : List (PsText (Ext K))) (h : ∀ t ∈ ts, t.at_.IsFin) : ∀ path cur ms, ∃ path' cur',
    run F 3 (mid [] path cur ms) (ts.flatMap textToks) = some (mid [] path' cur' (ms ++ ts.map (textMark F))) := by
  induction ts with
  | nil => intro path cur ms; exact ⟨path, cur, by simp [run_nil]⟩
  | cons t ts ih =>
    intro path cur ms
    obtain ⟨p1, c1, e1⟩ := run_text F 0 path cur ms _ _ (shown t) t.center _ _ (reads_numAt (fin_xy (h t List.mem_cons_self)).1) (reads_numAt (fin_xy (h t List.mem_cons_self)).2)
    obtain ⟨p2, c2, e2⟩ := ih (fun u hu => h u (List.mem_cons_of_mem _ hu)) p1 c1 (ms ++ [textMark F t])
    refine ⟨p2, c2, ?_⟩
    rw [List.flatMap_cons, run_append, textToks, e1, Option.bind_some]
    unfold textMark at e2
    rw [e2]
    simp [textMark]

theorem run_arcs_eq (as : List (Arc (Ext K))) (h : ∀ a ∈ as, a.IsFin) : ∀ path cur ms, ∃ path' cur',
    run F 3 (mid [] path cur ms) (as.flatMap arcToks) = some (mid [] path' cur' (ms ++ as.map arcMark)) := by
  induction as with
  | nil => intro path cur ms; exact ⟨path, cur, by simp [run_nil]⟩
  | cons a as ih =>
    intro path cur ms
    obtain ⟨hc, hr, h1, h2⟩ := h a List.mem_cons_self
    have e1 := run_arc F 0 path cur ms _ _ _ _ _ _ _ _ _ _ (reads_numAt (fin_xy hc).1) (reads_numAt (fin_xy hc).2) (reads_numAt hr) (reads_numDeg h1) (reads_numDeg h2)
    obtain ⟨p2, c2, e2⟩ := ih (fun u hu => h u (List.mem_cons_of_mem _ hu)) [] none (ms ++ [arcMark a])
    refine ⟨p2, c2, ?_⟩
    rw [List.flatMap_cons, run_append, arcToks, e1, Option.bind_some]
    unfold arcMark at e2
    rw [e2]
    simp [arcMark]

theorem run_lines_eq (ls : List (Line (Ext K))) (h : ∀ l ∈ ls, l.IsFin) : ∀ path cur ms, ∃ path' cur',
    run F 3 (mid [] path cur ms) (ls.flatMap lineToks) = some (mid [] path' cur' (ms ++ ls.map lineMark)) := by
  induction ls with
  | nil => intro path cur ms; exact ⟨path, cur, by simp [run_nil]⟩
  | cons l ls ih =>
    intro path cur ms
    obtain ⟨ho, ht⟩ := h l List.mem_cons_self
    have e1 := run_line F 0 path cur ms _ _ _ _ _ _ _ _ (reads_numAt (fin_xy ho).1) (reads_numAt (fin_xy ho).2) (reads_numAt (fin_xy ht).1) (reads_numAt (fin_xy ht).2)
    obtain ⟨p2, c2, e2⟩ := ih (fun u hu => h u (List.mem_cons_of_mem _ hu)) [] none (ms ++ [lineMark l])
    refine ⟨p2, c2, ?_⟩
    rw [List.flatMap_cons, run_append, lineToks, e1, Option.bind_some]
    unfold lineMark at e2
    rw [e2]
    simp [lineMark]

/-- what is put on a page before it is put out -/
def sheet (E : Env (Ext K)) (n i : Nat) (P : OutPage (Ext K)) : List Mark :=
  [border] ++ ((cornerLabel E i n).map (fun s => Mark.text ⟨7, 7⟩ (eol s) c!"Courier" 8)).toList ++ P.text.map (textMark F) ++ P.arcs.map arcMark ++ P.lines.map lineMark

def sheets (E : Env (Ext K)) (n : Nat) : Nat → List (OutPage (Ext K)) → List (List Mark)
  | _, [] => []
  | i, P :: Ps => sheet F E n i P :: sheets E n (i + 1) Ps

theorem run_page_eq (E : Env (Ext K)) (n i : Nat) (P : OutPage (Ext K)) (hP : P.IsFin) (path : List Elem) (cur : Option (V2 ℚ)) (ms : List Mark) :
    ∃ path' cur', run F 3 (mid [] path cur ms) (pageToks E n i P) = some (mid [] path' cur' (ms ++ (sheet F E n i P ++ [.page]))) := by
  obtain ⟨hl, ha, ht⟩ := hP
  obtain ⟨p1, c1, e1⟩ := run_corner F E i n [] none (ms ++ [border])
  obtain ⟨p2, c2, e2⟩ := run_texts_eq F P.text ht p1 c1 (ms ++ [border] ++ ((cornerLabel E i n).map (fun s => Mark.text ⟨7, 7⟩ (eol s) c!"Courier" 8)).toList)
  obtain ⟨p3, c3, e3⟩ := run_arcs_eq F P.arcs ha p2 c2 (ms ++ [border] ++ ((cornerLabel E i n).map (fun s => Mark.text ⟨7, 7⟩ (eol s) c!"Courier" 8)).toList ++ P.text.map (textMark F))
  obtain ⟨p4, c4, e4⟩ := run_lines_eq F P.lines hl p3 c3
    (ms ++ [border] ++ ((cornerLabel E i n).map (fun s => Mark.text ⟨7, 7⟩ (eol s) c!"Courier" 8)).toList ++ P.text.map (textMark F) ++ P.arcs.map arcMark)
  refine ⟨[], none, ?_⟩
  rw [pageToks, run_append, run_append, run_append, run_append, run_append, run_pageStart F 0 [] path cur ms rfl, Option.bind_some, e1, Option.bind_some, e2,
    Option.bind_some, e3, Option.bind_some, e4, Option.bind_some, run_cons, mid_showpage, Option.bind_some, run_nil]
  simp [sheet]

theorem run_pages_eq (E : Env (Ext K)) (n : Nat) (Ps : List (OutPage (Ext K))) (hP : ∀ P ∈ Ps, P.IsFin) : ∀ i path cur ms, ∃ path' cur',
    run F 3 (mid [] path cur ms) (pagesToks E n i Ps) = some (mid [] path' cur' (ms ++ (sheets F E n i Ps).flatMap (fun s => s ++ [.page]))) := by
  induction Ps with
  | nil => intro i path cur ms; exact ⟨path, cur, by simp [pagesToks, run_nil, sheets]⟩
  | cons P Ps ih =>
    intro i path cur ms
    obtain ⟨p1, c1, e1⟩ := run_page_eq F E n i P (hP P List.mem_cons_self) path cur ms
    obtain ⟨p2, c2, e2⟩ := ih (fun Q hQ => hP Q (List.mem_cons_of_mem _ hQ)) (i + 1) p1 c1 (ms ++ (sheet F E n i P ++ [.page]))
    refine ⟨p2, c2, ?_⟩
    rw [pagesToks, run_append, e1, Option.bind_some, e2]
    simp [sheets]

theorem paints_eq (E : Env (Ext K)) (src : Str) (Ps : List (OutPage (Ext K))) (hfin : ∀ P ∈ Ps, P.IsFin)
    (hraw : ∀ P ∈ Ps, ∀ t ∈ P.text, Harmless t) (h1 : OneLine E.name) (h2 : OneLine src) (h3 : OneLine E.now) :
    Paints F (renderPages E src Ps) ((sheets F E Ps.length 1 Ps).flatMap (fun s => s ++ [.page])) := by
  obtain ⟨p, c, e⟩ := run_pages_eq F E Ps.length Ps hfin 1 [] none []
  refine ⟨docToks E Ps, 3, mid [] p c ([] ++ (sheets F E Ps.length 1 Ps).flatMap (fun s => s ++ [.page])), ?_, ?_, rfl, ?_⟩
  · exact ((reads_documentHeader E src h1 h2 h3).app (reads_renderFrom E Ps.length Ps hraw 0)).scan
  · rw [docToks, run_append, run_prologue, Option.bind_some, e]
  · simp [mid]

theorem sheet_perm (E : Env (Ext K)) (n i : Nat) {P Q : OutPage (Ext K)} (h : P.SameInk Q) : (sheet F E n i P).Perm (sheet F E n i Q) := by
  unfold sheet
  exact (((List.Perm.refl _).append (h.2.2.map _)).append (h.2.1.map _)).append (h.1.map _)

theorem sheet_page (E : Env (Ext K)) (n i : Nat) (P : OutPage (Ext K)) : Mark.page ∉ sheet F E n i P := by
  unfold sheet
  simp only [List.mem_append, List.mem_map, List.mem_singleton, Option.mem_toList, Option.map_eq_some_iff, not_or]
  refine ⟨⟨⟨⟨?_, ?_⟩, ?_⟩, ?_⟩, ?_⟩
  · intro h; cases h
  · rintro ⟨_, -, h⟩; cases h
  · rintro ⟨_, -, h⟩; cases h
  · rintro ⟨_, -, h⟩; cases h
  · rintro ⟨_, -, h⟩; cases h

/-- **C99**, on paper: files written for pages with the same ink put the same marks on each sheet, perhaps in another order. -/
theorem C99_paper (E : Env (Ext K)) (src : Str) (Ps Qs : List (OutPage (Ext K))) (h : List.Forall₂ OutPage.SameInk Ps Qs) (hfin : ∀ P ∈ Ps, P.IsFin)
    (hraw : ∀ P ∈ Ps, ∀ t ∈ P.text, Harmless t) (h1 : OneLine E.name) (h2 : OneLine src) (h3 : OneLine E.now) :
    ∃ as bs : List (List Mark), Paints F (renderPages E src Ps) (as.flatMap (fun s => s ++ [.page])) ∧ Paints F (renderPages E src Qs) (bs.flatMap (fun s => s ++ [.page])) ∧
      as.length = Ps.length ∧ List.Forall₂ List.Perm as bs ∧ ∀ s ∈ as, Mark.page ∉ s := by
  have hQ : (∀ Q ∈ Qs, Q.IsFin) ∧ ∀ Q ∈ Qs, ∀ t ∈ Q.text, Harmless t := by
    have key : ∀ Q ∈ Qs, ∃ P ∈ Ps, P.SameInk Q := by
      clear hfin hraw
      induction h with
      | nil => simp
      | cons h _ ih =>
        intro Q hQ
        rcases List.mem_cons.1 hQ with rfl | hQ
        · exact ⟨_, List.mem_cons_self, h⟩
        · obtain ⟨P, a, b⟩ := ih Q hQ
          exact ⟨P, List.mem_cons_of_mem _ a, b⟩
    constructor
    · intro Q hQ
      obtain ⟨P, a, b⟩ := key Q hQ
      obtain ⟨x1, x2, x3⟩ := hfin P a
      exact ⟨fun l hl => x1 l (b.1.mem_iff.2 hl), fun l hl => x2 l (b.2.1.mem_iff.2 hl), fun l hl => x3 l (b.2.2.mem_iff.2 hl)⟩
    · intro Q hQ t ht
      obtain ⟨P, a, b⟩ := key Q hQ
      exact hraw P a t (b.2.2.mem_iff.2 ht)
  have hl := h.length_eq
  refine ⟨_, _, paints_eq F E src Ps hfin hraw h1 h2 h3, paints_eq F E src Qs hQ.1 hQ.2 h1 h2 h3, ?_, ?_, ?_⟩
  · have : ∀ n i, (sheets F E n i Ps).length = Ps.length := by
      intro n i
      clear hfin hraw hQ hl h
      induction Ps generalizing i with
      | nil => rfl
      | cons P Ps ih => simp only [sheets, List.length_cons, ih (i + 1)]
    exact this _ _
  · rw [← hl]
    generalize 1 = i
    generalize Ps.length = n
    clear hfin hraw hQ hl
    induction h generalizing i with
    | nil => exact .nil
    | cons h _ ih => exact .cons (sheet_perm F E n i h) (ih (i + 1))
  · generalize 1 = i
    generalize Ps.length = n
    clear hfin hraw hQ hl h
    induction Ps generalizing i with
    | nil => simp [sheets]
    | cons P Ps ih =>
      intro s hs
      rcases List.mem_cons.1 hs with rfl | hs
      · exact sheet_page F E n i P
      · exact ih (i + 1) s hs

/-- pages that meet the premises, with two lines in either order -/
example : List.Forall₂ OutPage.SameInk
      [(⟨[⟨V2.fin ⟨0, 0⟩, V2.fin ⟨1, 2⟩⟩, ⟨V2.fin ⟨5, 0⟩, V2.fin ⟨1, 2⟩⟩], [], [⟨V2.fin ⟨1, 1⟩, c!"a)", true, false⟩]⟩ : OutPage (Ext ℚ))]
      [⟨[⟨V2.fin ⟨5, 0⟩, V2.fin ⟨1, 2⟩⟩, ⟨V2.fin ⟨0, 0⟩, V2.fin ⟨1, 2⟩⟩], [], [⟨V2.fin ⟨1, 1⟩, c!"a)", true, false⟩]⟩] ∧
    (⟨[⟨V2.fin ⟨0, 0⟩, V2.fin ⟨1, 2⟩⟩, ⟨V2.fin ⟨5, 0⟩, V2.fin ⟨1, 2⟩⟩], [], [⟨V2.fin ⟨1, 1⟩, c!"a)", true, false⟩]⟩ : OutPage (Ext ℚ)).IsFin ∧
    Harmless (⟨V2.fin ⟨1, 1⟩, c!"a)", true, false⟩ : PsText (Ext ℚ)) := by
  refine ⟨.cons ⟨.swap _ _ _, .refl _, .refl _⟩ .nil, ⟨?_, ?_, ?_⟩, fun h => by cases h⟩
  · simp only [List.mem_cons, List.not_mem_nil, or_false]; rintro l (rfl | rfl) <;> exact ⟨⟨_, rfl⟩, ⟨_, rfl⟩⟩
  · simp
  · simp only [List.mem_singleton]; rintro l rfl; exact ⟨_, rfl⟩

end PS
end S2P
