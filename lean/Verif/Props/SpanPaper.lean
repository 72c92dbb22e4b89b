import Verif.Spec.SpanPaper
import Verif.Props.Span
import Verif.Props.PaperDouble

set_option linter.unusedSectionVars false
set_option linter.unusedVariables false
set_option linter.unusedSimpArgs false

/-! # C86: from model files to paper -/

namespace S2P
open PS

theorem flatten_split {A B : Type} {Q : A → B → Prop} : ∀ (Ls : List (List A)) (tail : List A) (ms : List B), List.Forall₂ Q (Ls.flatten ++ tail) ms →
    ∃ Ms rest, ms = Ms.flatten ++ rest ∧ List.Forall₂ (List.Forall₂ Q) Ls Ms ∧ List.Forall₂ Q tail rest
  | [], tail, ms, h => ⟨[], ms, rfl, .nil, h⟩
  | L :: Ls, tail, ms, h => by
    rw [List.flatten_cons, List.append_assoc] at h
    have : ∀ (L X : List A) (ms : List B), List.Forall₂ Q (L ++ X) ms → ∃ u v, ms = u ++ v ∧ List.Forall₂ Q L u ∧ List.Forall₂ Q X v := by
      intro L
      induction L with
      | nil => intro X ms h; exact ⟨[], ms, rfl, .nil, h⟩
      | cons a L ih =>
        intro X ms h
        cases h with
        | cons h1 h2 =>
          obtain ⟨u, v, rfl, k1, k2⟩ := ih _ _ h2
          exact ⟨_ :: u, v, rfl, .cons h1 k1, k2⟩
    obtain ⟨u, v, rfl, k1, k2⟩ := this _ _ _ h
    obtain ⟨Ms, rest, rfl, k3, k4⟩ := flatten_split Ls tail v k2
    exact ⟨u :: Ms, rest, by simp, .cons k1 k3, k4⟩

theorem sum_lines {α : Type} [FP α] : ∀ Ps : List (OutPage α), (OutPage.sum Ps).lines = (Ps.map (fun P => P.lines)).flatten
  | [] => rfl
  | P :: Ps => by simp [OutPage.sum, OutPage.app, sum_lines Ps]

/-- lines on the page that show a body show it on paper -/
theorem ink_shows {R : Rounding} {δ M : ℝ} {r : M3 ℝ} {ts : List (Tri ℝ)} {k : ℝ} {off : V2 ℝ} {η : ℝ} {ls : List (Line (Fl R))} {ink : List (List Elem)}
    (hp : List.Forall₂ (fun l path => PaintsLine (K := ℝ) l (.stroke path)) ls ink) (h : ShowsView δ M r ts k off η ls) : InkShows δ M r ts k off η ink := by
  have joins : ∀ {l : Line (Fl R)} {path p q}, PaintsLine (K := ℝ) l (.stroke path) → LineJoins η p q l → PathJoins η p q path := by
    rintro l path p q hl (⟨h1, h2⟩ | ⟨h1, h2⟩)
    · exact Or.inl (line_near h1 h2 hl)
    · exact Or.inr (line_near h1 h2 hl)
  constructor
  · intro a b σ hv
    obtain ⟨l, hl, x, y, h1, h2, h3, h4, h5⟩ := h.1 a b σ hv
    obtain ⟨path, hpm, hpl⟩ := forall₂_mem hp hl
    exact ⟨path, hpm, x, y, h1, h2, h3, h4, joins hpl h5⟩
  · intro path hpm
    obtain ⟨l, hl, hpl⟩ := forall₂_right hp path hpm
    obtain ⟨a, b, x, y, h1, h2, h3, h4, h5⟩ := h.2 l hl
    exact ⟨a, b, x, y, h1, h2, h3, h4, joins hpl h5⟩

theorem stroke_paths {R : Rounding} : ∀ (ls : List (Line (Fl R))) (ms : List Mark), List.Forall₂ (PaintsLine (K := ℝ)) ls ms →
    ∃ ink : List (List Elem), ms = ink.map Mark.stroke ∧ List.Forall₂ (fun l path => PaintsLine (K := ℝ) l (.stroke path)) ls ink
  | [], _, .nil => ⟨[], rfl, .nil⟩
  | l :: ls, _, .cons h1 h2 => by
    obtain ⟨ink, rfl, h3⟩ := stroke_paths ls _ h2
    obtain ⟨ax, ay, bx, by', s1, s2, s3, s4, rfl⟩ := h1
    exact ⟨_ :: ink, rfl, .cons ⟨ax, ay, bx, by', s1, s2, s3, s4, rfl⟩ h3⟩

section
variable (I : IntRounding) (range64 range32 : ℚ → Bool)

/-- the strokes on one sheet -/
theorem sheet_shows (F : Fonts) (E : Env (Fl (binary64 I range64 range32))) (hS : SortOK E.sorter) (hJ : E.junkM = ⟨V3.zero, V3.zero, V3.zero⟩)
    (stl : Models (Fl (binary64 I range64 range32))) {n : ℕ} (hn : n ≤ 40) (hM : stl.Bd n) (w : World) (models : List ModelN)
    (hl : ∀ name e file, stl.find? (fun e => decide (e.1 = name)) = some e → e.2 = some file → ∃ m ∈ models, m.name = name ∧ Loads E.loadPath w m file)
    (pg : PageN (Fl (binary64 I range64 range32))) (hlo : ∀ x ∈ pg.draws, x.LocBd)
    (hd : ∀ name ms dims line, Drawable.draw name ms dims line ∈ pg.draws → dims = [] ∧ TameView ms ∧ TameScale ms)
    (ht : ∀ t, titled pg.metas t → t.length ≤ 2 ^ 32)
    (g : GenRes (Fl (binary64 I range64 range32))) (hg : onePage E stl pg = .ok g) (gok : g.ok = true)
    (o : OutPage (Fl (binary64 I range64 range32))) (gp : g.pages = [o]) (harc : o.arcs = []) (k i : ℕ) (P : List Mark)
    (hP : PaintsPage (K := ℝ) F E k i o P) : SheetShows E.loadPath w models (2 ^ n) pg P := by
  have hR := binary64_accurate I range64 range32
  obtain ⟨cs, k1, ⟨t, kt, k2⟩, k3⟩ := C58_page E _ pg g hg
  have hall := (k3.1 gok).2.2
  rw [gp] at k2
  injection k2 with k2 _
  have hT := title_near hR t.length (ht t kt)
  obtain ⟨mt, ma, ml, rfl, ft, fa, fl⟩ := hP
  have hma : ma = [] := by
    change List.Forall₂ PaintsArc o.arcs ma at fa
    rw [harc] at fa; cases fa; rfl
  subst hma
  have lit : ∀ z : ℤ, |z| < 2 ^ 53 → ∀ (ε : ℝ), 0 ≤ ε → Fl.Near (FP.lit (z : ℚ) : Fl (binary64 I range64 range32)) z ε := by
    intro z hz ε he
    rw [lit_int I range64 range32 z hz]
    exact (Fl.near_fin _).mono he
  have hε : (0 : ℝ) ≤ (t.length + 200) / 2 ^ 18 := by positivity
  have n5 := lit 5 (by norm_num) _ hε
  have n16 := lit 16 (by norm_num) _ hε
  have n787 := lit 787 (by norm_num) _ hε
  push_cast at n5 n16 n787
  have e16 : ((kFontSize : ℚ) + 8) = 16 := by norm_num [kFontSize]
  have hhead : (addHeader (OutPage.empty) t : OutPage (Fl (binary64 I range64 range32))).lines =
      [⟨⟨FP.f32 (FP.f32 (FP.lit 784 - FP.lit t.length * FP.lit (kFontSize : ℚ) * FP.lit (6 / 10)) - FP.lit 3), FP.lit 5⟩,
        ⟨FP.f32 (FP.f32 (FP.lit 784 - FP.lit t.length * FP.lit (kFontSize : ℚ) * FP.lit (6 / 10)) - FP.lit 3), FP.lit 16⟩⟩,
       ⟨⟨FP.f32 (FP.f32 (FP.lit 784 - FP.lit t.length * FP.lit (kFontSize : ℚ) * FP.lit (6 / 10)) - FP.lit 3), FP.lit 16⟩, ⟨FP.lit 787, FP.lit 16⟩⟩] := by
    rw [← e16]; rfl
  have ho : o.lines = (cs.map (fun c => c.2.1.lines)).flatten ++ (addHeader (OutPage.empty) t : OutPage (Fl (binary64 I range64 range32))).lines := by
    rw [k2]
    change (OutPage.sum (cs.map (fun c => c.2.1))).lines ++ _ = _
    rw [sum_lines, List.map_map]; rfl
  change List.Forall₂ _ o.lines ml at fl
  rw [ho, hhead] at fl
  obtain ⟨Ms, rest, rfl, f1, f2⟩ := flatten_split _ _ _ fl
  -- what each drawing adds
  have each : ∀ d c M, d ∈ pg.draws → content E stl d = .ok c → c ∈ cs → List.Forall₂ (PaintsLine (K := ℝ)) c.2.1.lines M →
      ∃ ink : List (List Elem), M = ink.map Mark.stroke ∧ InkOf E.loadPath w models (2 ^ n) d ink := by
    intro d c M hdm hdc hcm hM'
    obtain ⟨ink, e, hink⟩ := stroke_paths (R := binary64 I range64 range32) _ _ hM'
    refine ⟨ink, e, ?_⟩
    cases d with
    | text s ms l =>
      rw [(text_no_lines E _ s ms l c hdc).1] at hink
      cases hink; rfl
    | draw name ms dims line =>
      obtain ⟨rfl, hv, hs⟩ := hd name ms dims line hdm
      obtain ⟨file, v, ts, k, p, off, own, rest, ⟨en, e1, e2⟩, d1, d2, d3, d4, d5, d6, d7⟩ :=
        C85_body I range64 range32 E hS hJ _ hn hM name ms (hlo _ hdm) hv hs [] line _ hdc (hall _ hcm)
      rw [d6 rfl, List.append_nil] at d5
      rw [d5] at hink
      obtain ⟨m, m1, m2, ps, text, q1, q2, q3⟩ := hl name en file e1 e2
      exact ⟨m, m1, text, ps, file, v, ts, k, p, off, m2, q1, q2, q3, d1, d2, d3, d4, fun us hus => ink_shows hink (d7 text us q3 hus)⟩
  obtain ⟨inks, hMs, hinks⟩ : ∃ inks : List (List (List Elem)), Ms = inks.map (fun ink => ink.map Mark.stroke) ∧
      List.Forall₂ (InkOf E.loadPath w models (2 ^ n)) pg.draws inks := by
    clear ft fl fa ho k2 hlo hd k3 gok hall
    generalize hds : pg.draws = ds at *
    have hsub : ∀ d ∈ ds, d ∈ ds := fun _ h => h
    have hsub2 : ∀ c ∈ cs, c ∈ cs := fun _ h => h
    generalize hds' : ds = ds' at k1 hsub ⊢
    have hk : ∀ d ∈ ds', d ∈ ds := by rw [hds']; exact fun _ h => h
    clear hds' hsub
    have hc : ∀ c ∈ cs, c ∈ cs := fun _ h => h
    generalize hcs' : cs = cs' at k1 f1 hc
    have hc' : ∀ c ∈ cs', c ∈ cs := by rw [hcs']; exact fun _ h => h
    clear hcs' hc
    induction k1 generalizing Ms with
    | nil => cases f1; exact ⟨[], rfl, .nil⟩
    | @cons d c ds' cs' h1 h2 ih =>
      simp only [List.map_cons] at f1
      cases f1 with
      | cons g1 g2 =>
        obtain ⟨inks, rfl, j⟩ := ih _ (fun d hd => hk d (List.mem_cons_of_mem _ hd)) g2 (fun c hc => hc' c (List.mem_cons_of_mem _ hc))
        obtain ⟨ink, rfl, j'⟩ := each d c _ (hk d List.mem_cons_self) h1 (hc' c List.mem_cons_self) g1
        exact ⟨ink :: inks, rfl, .cons j' j⟩
  subst hMs
  refine ⟨t, inks, kt, hinks, ?_, ?_⟩
  · intro ink hi path hpth
    have : Mark.stroke path ∈ (inks.map (fun ink => ink.map Mark.stroke)).flatten :=
      List.mem_flatten.2 ⟨_, List.mem_map_of_mem hi, List.mem_map_of_mem hpth⟩
    simp only [List.mem_append, this, true_or, or_true]
  · intro path hpath
    have hmt : Mark.stroke path ∉ mt := by
      intro hin
      obtain ⟨t, -, _, _, -, -, ht⟩ := forall₂_right ft _ hin
      cases ht
    simp only [List.append_assoc, List.mem_append, List.mem_cons, List.not_mem_nil, or_false, false_or, reduceCtorEq] at hpath
    rcases hpath with h | h | h | h | h
    · exact Or.inl h
    · cases hcl : cornerLabel (α := Ext ℝ) E i k <;> rw [hcl] at h <;> simp at h
    · exact absurd h hmt
    · right; right
      obtain ⟨L, hL, hp⟩ := List.mem_flatten.1 h
      obtain ⟨ink, hi, rfl⟩ := List.mem_map.1 hL
      obtain ⟨path', hp', e⟩ := List.mem_map.1 hp
      injection e with e
      subst e
      exact ⟨ink, hi, hp'⟩
    · right; left
      obtain ⟨l, hl', hls⟩ := forall₂_right f2 _ h
      simp only [List.mem_cons, List.not_mem_nil, or_false] at hl'
      rcases hl' with rfl | rfl
      · left
        exact line_near (a := ⟨_, _⟩) (b := ⟨_, _⟩) ⟨hT.2, n5⟩ ⟨hT.2, n16⟩ hls
      · right
        exact line_near (a := ⟨_, _⟩) (b := ⟨_, _⟩) ⟨hT.2, n16⟩ ⟨n787, n16⟩ hls

/-- **C86.** In IEEE 754 double arithmetic, whatever the direction of rounding: if a conversion succeeds, what it writes, run as a PostScript program, puts
one sheet after the other on paper, one for each page of the script.  On each, the strokes are the border, the title's box and the lines of the drawings of the
page.  The lines of a drawing show the body that the text of its model file describes, in the view and at the scale and place asked for: every point in view
of an edge is in a line, and no line shows a part of an edge that is hidden, but for 2^-10 of its length at the ends.  The texts are those of the script.
Premises as in C76; the numbers on the vertex lines of the model files are of size at most 2^n. -/
theorem C86_paper (F : Fonts) (E : Env (Fl (binary64 I range64 range32))) (hS : SortOK E.sorter) (hJ : E.junkM = ⟨V3.zero, V3.zero, V3.zero⟩)
    (w : World) (src script : Str) {n : ℕ} (hn : n ≤ 40) (r : RunRes) (h : scriptToPS E w src script = .ok r) (hok : r.ok = true)
    (hw : ∀ doc : Doc (Fl (binary64 I range64 range32)), parse script = .ok (some doc) → SaneModels n E.loadPath w doc.models)
    (hd : ∀ doc : Doc (Fl (binary64 I range64 range32)), parse script = .ok (some doc) → ∀ pg ∈ doc.pages, ∀ name ms dims line,
      Drawable.draw name ms dims line ∈ pg.draws → dims = [] ∧ TameView ms ∧ TameScale ms)
    (ht : ∀ doc : Doc (Fl (binary64 I range64 range32)), parse script = .ok (some doc) → ∀ pg ∈ doc.pages, (∀ t, titled pg.metas t → t.length ≤ 2 ^ 32) ∧
      ∀ s ms line, Drawable.text s ms line ∈ pg.draws → s.length < 2 ^ 32)
    (h1 : OneLine E.name) (h2 : OneLine src) (h3 : OneLine E.now) :
    ∃ (doc : Doc (Fl (binary64 I range64 range32))) (sheets : List (List Mark)), parse script = .ok (some doc) ∧ Paints F r.out sheets.flatten ∧
      List.Forall₂ (fun (pg : PageN (Fl (binary64 I range64 range32)) × ℕ) P => SheetShows E.loadPath w doc.models (2 ^ n) pg.1 P ∧
        TextsOfPage (cornerLabel E pg.2 doc.pages.length) pg.1 P) (doc.pages.zipIdx 1) sheets := by
  obtain ⟨doc, fs, outs, hp, -, hl, hf, ho⟩ := (C48_all_or_nothing E w src script r h).2.1 hok
  have hM : Models.Bd n (List.zipWith (fun (m : ModelN) f => (m.name, some f)) doc.models fs) := by
    have hw' := hw doc hp
    clear * - hl hw' hn
    generalize doc.models = dm at *
    induction hl with
    | nil => intro e he; simp at he
    | @cons m f ms fs hmf _ ih =>
      intro e he
      simp only [List.zipWith_cons_cons, List.mem_cons] at he
      rcases he with rfl | he
      · obtain ⟨ps, x, p1, p2, hx⟩ := hmf
        exact ⟨f, rfl, sane_bd (by omega) (hw' m (by simp) ps x p1 p2) f hx⟩
      · exact ih (fun m' hm' => hw' m' (by simp [hm'])) e he
  have hlo := parse_locBd script doc hp
  have hd' := hd doc hp
  have ht' := ht doc hp
  have each : List.Forall₂ (fun pg (o : OutPage (Fl (binary64 I range64 range32))) => o.arcs = [] ∧ OutPage.IsFin (K := ℝ) o ∧ (∀ t ∈ o.text, Harmless t) ∧
      ∀ k i a, PaintsPage (K := ℝ) F E k i o a → SheetShows E.loadPath w doc.models (2 ^ n) pg a ∧ TextsOfPage (cornerLabel E i k) pg a) doc.pages outs := by
    generalize doc.pages = pgs at *
    clear ho
    induction hf with
    | nil => exact .nil
    | @cons pg o pgs outs ho _ ih =>
      refine .cons ?_ (ih (fun pg hpg => hlo pg (List.mem_cons_of_mem _ hpg)) (fun pg hpg => hd' pg (List.mem_cons_of_mem _ hpg))
        (fun pg hpg => ht' pg (List.mem_cons_of_mem _ hpg)))
      obtain ⟨g, hg, gok, gp⟩ := ho
      have hfind := fun name e file e1 e2 => find_loads E.loadPath w _ _ hl name e e1 file e2
      obtain ⟨a1, a2, a3, a4⟩ := sheet_near I range64 range32 F E hS hJ _ (by omega) hM w doc.models hfind pg
        (hlo pg List.mem_cons_self) (hd' pg List.mem_cons_self) (ht' pg List.mem_cons_self).1 (ht' pg List.mem_cons_self).2 g hg gok o gp
      exact ⟨a1, a2, a3, fun k i a ha => ⟨sheet_shows I range64 range32 F E hS hJ _ hn hM w doc.models hfind pg (hlo pg List.mem_cons_self) (hd' pg List.mem_cons_self)
        (ht' pg List.mem_cons_self).1 g hg gok o gp a1 k i a ha, (a4 k i a ha).2⟩⟩
  have mem : ∀ o ∈ outs, ∃ pg ∈ doc.pages, _ := fun o ho => forall₂_right each o ho
  rw [renderPages_ext I range64 range32 E src outs (fun o ho => (mem o ho).choose_spec.2.1)] at ho
  obtain ⟨ms, k1, k2⟩ := C35_paints F (K := ℝ) E src outs (fun o ho => (mem o ho).choose_spec.2.2.1) (fun o ho => (mem o ho).choose_spec.2.2.2.1) h1 h2 h3
  obtain ⟨sheets, rfl, k3⟩ := sheets_indexed F E _ outs 1 ms k2
  refine ⟨doc, sheets, hp, by rw [ho]; exact k1, ?_⟩
  rw [each.length_eq]
  exact sheets_meet (S := fun n i o a => PaintsPage (K := ℝ) F E n i o a)
    (Q := fun k i pg P => SheetShows E.loadPath w doc.models (2 ^ n) pg P ∧ TextsOfPage (cornerLabel E i k) pg P) outs.length _ _
    (each.imp fun _ _ h => h.2.2.2) _ _ k3

/-- **C86**, of the program: after exit status 0 the output file holds such a program. -/
theorem C86_program (F : Fonts) (E : Env (Fl (binary64 I range64 range32))) (hS : SortOK E.sorter) (hJ : E.junkM = ⟨V3.zero, V3.zero, V3.zero⟩)
    (w : World) (script output : Str) (hs : w.ident script ≠ w.ident output)
    (hm : ∀ text (doc : Doc (Fl (binary64 I range64 range32))), w.read script = some text → parse text = .ok (some doc) → ∀ m ∈ doc.models, ∀ ps,
      Places E.loadPath m.source ps → ∀ p ∈ ps, w.ident p ≠ w.ident output)
    {n : ℕ} (hn : n ≤ 40)
    (hw : ∀ text (doc : Doc (Fl (binary64 I range64 range32))), w.read script = some text → parse text = .ok (some doc) →
      SaneModels n E.loadPath w doc.models ∧ ∀ pg ∈ doc.pages, (∀ t, titled pg.metas t → t.length ≤ 2 ^ 32) ∧
        (∀ s ms line, Drawable.text s ms line ∈ pg.draws → s.length < 2 ^ 32) ∧
        ∀ name ms dims line, Drawable.draw name ms dims line ∈ pg.draws → dims = [] ∧ TameView ms ∧ TameScale ms)
    (h1 : OneLine E.name) (h2 : OneLine script) (h3 : OneLine E.now) (h0 : (mainRun E w script output).1 = .ok 0) :
    ∃ (text out : Str) (doc : Doc (Fl (binary64 I range64 range32))) (sheets : List (List Mark)), w.read script = some text ∧ parse text = .ok (some doc) ∧
      (mainRun E w script output).2.read output = some out ∧ Paints F out sheets.flatten ∧
      List.Forall₂ (fun (pg : PageN (Fl (binary64 I range64 range32)) × ℕ) P => SheetShows E.loadPath w doc.models (2 ^ n) pg.1 P ∧
        TextsOfPage (cornerLabel E pg.2 doc.pages.length) pg.1 P) (doc.pages.zipIdx 1) sheets := by
  obtain ⟨-, -, -, text, r, k1, k2, k3, -, k4⟩ := (C49_exit_partial E w script output hs hm).1.1 h0
  obtain ⟨doc, sheets, j1, j2, j3⟩ := C86_paper I range64 range32 F E hS hJ w script text hn r k2 k3 (fun doc hd => (hw text doc k1 hd).1)
    (fun doc hd pg hpg => ((hw text doc k1 hd).2 pg hpg).2.2) (fun doc hd pg hpg => ⟨((hw text doc k1 hd).2 pg hpg).1, ((hw text doc k1 hd).2 pg hpg).2.1⟩) h1 h2 h3
  exact ⟨text, r.out, doc, sheets, k1, j1, k4, j2, j3⟩
end

/-! ## The premises occur -/

/-- an upper and a lower triangle; the latter is partly hidden from above -/
def duoA : TriText where
  n := ⟨num 0, num 0, num 1⟩
  a := ⟨num 0, num 2, num 5⟩
  b := ⟨num 4, num 2, num 5⟩
  c := ⟨num 0, num 5, num 5⟩
  ind _ := 0
  gap := 0

def duoB : TriText where
  n := ⟨num 0, num 0, num 1⟩
  a := ⟨num 1, num 0, num 1⟩
  b := ⟨num 3, num 0, num 1⟩
  c := ⟨num 2, num 3, num 1⟩
  ind _ := 0
  gap := 0

def duoText : Str := stlText c!"p" [duoA, duoB]

/-- the script is file 1, the output file 2, the model file 3 -/
def duoDisk : World where
  ident p := if p = c!"s" then 1 else if p = c!"o" then 2 else if p = c!"/x" then 3 else 0
  data i := if i = 1 then some c!"load m=\"/x\";page{draw m{}}" else if i = 3 then some duoText else none
  canWrite i := i == 2

theorem duo_described : Describes (2 ^ 3) duoText
    [⟨⟨0, 0, 1⟩, ⟨0, 2, 5⟩, ⟨4, 2, 5⟩, ⟨0, 5, 5⟩, 5⟩, ⟨⟨0, 0, 1⟩, ⟨1, 0, 1⟩, ⟨3, 0, 1⟩, ⟨2, 3, 1⟩, 1⟩] := by
  refine ⟨getLines duoText, (getLines duoText).filterMap classify, linesOf_getLines _, ?_, ?_⟩
  · have h : ∀ l ∈ getLines duoText, (classify (α := Ext ℚ) l).isSome = true := by decide +kernel
    generalize getLines duoText = ls at h
    induction ls with
    | nil => exact .nil
    | cons l ls ih =>
      obtain ⟨r, hr⟩ := Option.isSome_iff_exists.1 (h l (by simp))
      rw [List.filterMap_cons, hr]
      exact .cons ((classify_iff l r).1 hr) (ih (fun l hl => h l (by simp [hl])))
  · have e : blocks (α := Ext ℚ) ((getLines duoText).filterMap classify) =
        [(V3.fin ⟨0, 0, 1⟩, [V3.fin ⟨0, 2, 5⟩, V3.fin ⟨4, 2, 5⟩, V3.fin ⟨0, 5, 5⟩]), (V3.fin ⟨0, 0, 1⟩, [V3.fin ⟨1, 0, 1⟩, V3.fin ⟨3, 0, 1⟩, V3.fin ⟨2, 3, 1⟩])] := by
      decide +kernel
    rw [e]
    have l1 : len3 (⟨0, 0, 12⟩ : V3 ℝ) = 12 := by
      simp only [len3, V3.sqNorm, V3.dot]
      rw [show (0 ^ 2 + 0 ^ 2 + 12 ^ 2 : ℝ) = 12 ^ 2 by norm_num]
      exact Real.sqrt_sq (by norm_num)
    have l2 : len3 (⟨0, 0, 6⟩ : V3 ℝ) = 6 := by
      simp only [len3, V3.sqNorm, V3.dot]
      rw [show (0 ^ 2 + 0 ^ 2 + 6 ^ 2 : ℝ) = 6 ^ 2 by norm_num]
      exact Real.sqrt_sq (by norm_num)
    have c1 : ((V3.real ⟨4, 2, 5⟩ - V3.real ⟨0, 2, 5⟩).cross (V3.real ⟨0, 5, 5⟩ - V3.real ⟨0, 2, 5⟩)) = (⟨0, 0, 12⟩ : V3 ℝ) := by
      ext <;> simp [V3.real, V3.cross] <;> norm_num
    have c2 : ((V3.real ⟨3, 0, 1⟩ - V3.real ⟨1, 0, 1⟩).cross (V3.real ⟨2, 3, 1⟩ - V3.real ⟨1, 0, 1⟩)) = (⟨0, 0, 6⟩ : V3 ℝ) := by
      ext <;> simp [V3.real, V3.cross] <;> norm_num
    have u1 : unitNormal (V3.real ⟨0, 2, 5⟩) (V3.real ⟨4, 2, 5⟩) (V3.real ⟨0, 5, 5⟩) = ⟨0, 0, 1⟩ := by
      unfold unitNormal; rw [c1, l1]; ext <;> simp [V3.sdiv]
    have u2 : unitNormal (V3.real ⟨1, 0, 1⟩) (V3.real ⟨3, 0, 1⟩) (V3.real ⟨2, 3, 1⟩) = ⟨0, 0, 1⟩ := by
      unfold unitNormal; rw [c2, l2]; ext <;> simp [V3.sdiv]
    refine .cons ⟨_, _, _, _, _, rfl, ⟨?_, ?_, ?_, ?_, ?_, ?_⟩, ?_⟩ (.cons ⟨_, _, _, _, _, rfl, ⟨?_, ?_, ?_, ?_, ?_, ?_⟩, ?_⟩ .nil)
    · simp [V3.Within, V3.real]; norm_num
    · simp [V3.Within, V3.real]; norm_num
    · simp [V3.Within, V3.real]; norm_num
    · simp [V3.Within, V3.real]
    · rw [c1, l1]; norm_num
    · rw [u1]; simp [V3.real, V3.dot]; norm_num
    · unfold triOf; rw [u1, if_neg (by simp [V3.real, V3.dot])]; simp [V3.real, V3.dot]
    · simp [V3.Within, V3.real]; norm_num
    · simp [V3.Within, V3.real]; norm_num
    · simp [V3.Within, V3.real]; norm_num
    · simp [V3.Within, V3.real]
    · rw [c2, l2]; norm_num
    · rw [u2]; simp [V3.real, V3.dot]; norm_num
    · unfold triOf; rw [u2, if_neg (by simp [V3.real, V3.dot])]; simp [V3.real, V3.dot]

theorem duo_file : ∃ f : STLFile F64, make duoText = .ok (some f) := by
  have N : ∀ a b c : ℕ, a < 10 → b < 10 → c < 10 → _ ∧ _ := fl_denotes
  obtain ⟨f, hf, hv⟩ := C17_round_trip (α := F64) FPRound.conv c!"p" (by decide) [duoA, duoB]
    [((⟨(Ext.fin ((0 : ℕ) : ℝ) : Ext ℝ), (Ext.fin ((0 : ℕ) : ℝ) : Ext ℝ), (Ext.fin ((1 : ℕ) : ℝ) : Ext ℝ)⟩ : V3 F64),
      (⟨(Ext.fin ((0 : ℕ) : ℝ) : Ext ℝ), (Ext.fin ((2 : ℕ) : ℝ) : Ext ℝ), (Ext.fin ((5 : ℕ) : ℝ) : Ext ℝ)⟩ : V3 F64),
      (⟨(Ext.fin ((4 : ℕ) : ℝ) : Ext ℝ), (Ext.fin ((2 : ℕ) : ℝ) : Ext ℝ), (Ext.fin ((5 : ℕ) : ℝ) : Ext ℝ)⟩ : V3 F64),
      (⟨(Ext.fin ((0 : ℕ) : ℝ) : Ext ℝ), (Ext.fin ((5 : ℕ) : ℝ) : Ext ℝ), (Ext.fin ((5 : ℕ) : ℝ) : Ext ℝ)⟩ : V3 F64)),
     ((⟨(Ext.fin ((0 : ℕ) : ℝ) : Ext ℝ), (Ext.fin ((0 : ℕ) : ℝ) : Ext ℝ), (Ext.fin ((1 : ℕ) : ℝ) : Ext ℝ)⟩ : V3 F64),
      (⟨(Ext.fin ((1 : ℕ) : ℝ) : Ext ℝ), (Ext.fin ((0 : ℕ) : ℝ) : Ext ℝ), (Ext.fin ((1 : ℕ) : ℝ) : Ext ℝ)⟩ : V3 F64),
      (⟨(Ext.fin ((3 : ℕ) : ℝ) : Ext ℝ), (Ext.fin ((0 : ℕ) : ℝ) : Ext ℝ), (Ext.fin ((1 : ℕ) : ℝ) : Ext ℝ)⟩ : V3 F64),
      (⟨(Ext.fin ((2 : ℕ) : ℝ) : Ext ℝ), (Ext.fin ((3 : ℕ) : ℝ) : Ext ℝ), (Ext.fin ((1 : ℕ) : ℝ) : Ext ℝ)⟩ : V3 F64))]
    (.cons ⟨(N 0 0 1 (by norm_num) (by norm_num) (by norm_num)).1, (N 0 2 5 (by norm_num) (by norm_num) (by norm_num)).1,
      (N 4 2 5 (by norm_num) (by norm_num) (by norm_num)).1, (N 0 5 5 (by norm_num) (by norm_num) (by norm_num)).1,
      (N 0 0 1 (by norm_num) (by norm_num) (by norm_num)).2, (N 0 2 5 (by norm_num) (by norm_num) (by norm_num)).2,
      (N 4 2 5 (by norm_num) (by norm_num) (by norm_num)).2, (N 0 5 5 (by norm_num) (by norm_num) (by norm_num)).2⟩
    (.cons ⟨(N 0 0 1 (by norm_num) (by norm_num) (by norm_num)).1, (N 1 0 1 (by norm_num) (by norm_num) (by norm_num)).1,
      (N 3 0 1 (by norm_num) (by norm_num) (by norm_num)).1, (N 2 3 1 (by norm_num) (by norm_num) (by norm_num)).1,
      (N 0 0 1 (by norm_num) (by norm_num) (by norm_num)).2, (N 1 0 1 (by norm_num) (by norm_num) (by norm_num)).2,
      (N 3 0 1 (by norm_num) (by norm_num) (by norm_num)).2, (N 2 3 1 (by norm_num) (by norm_num) (by norm_num)).2⟩ .nil)) (by
      have h0 : (FP.lit 0 : F64) = (.fin 0 : Ext ℝ) := lit_zero _
      have : FP.eq (α := F64) (Ext.fin ((1 : ℕ) : ℝ) : Ext ℝ) (Ext.fin 0 : Ext ℝ) = false := by
        show Ext.eq (K := ℝ) _ _ = false
        simp [Ext.eq]
      intro v hv
      simp only [List.mem_cons, List.not_mem_nil, or_false] at hv
      rcases hv with rfl | rfl <;> (simp only [V3.eqv, V3.zero, h0]; rw [this]; simp))
  exact ⟨f, hf⟩

theorem duo_sane : SaneFile 3 duoText := saneB_ok _ _ (by decide +kernel)

theorem duo_part : HidesPart ((2 ^ 3) ^ 2 / 2 ^ 30) ((2 ^ 3) ^ 2 / 2 ^ 14) (2 ^ 3 / 2 ^ 12) (1 / 2 ^ 15) ⟨3, 0, 1⟩ ⟨2, 3, 1⟩
    (⟨⟨0, 0, 1⟩, ⟨0, 2, 5⟩, ⟨4, 2, 5⟩, ⟨0, 5, 5⟩, 5⟩ : Tri ℝ) (2 / 3) 1 := by
  have hp : PassesUnder ((2 ^ 3) ^ 2 / 2 ^ 14) (2 ^ 3 / 2 ^ 12) (1 / 2 ^ 15) (⟨3, 0, 1⟩ : V3 ℝ) ⟨2, 3, 1⟩ ⟨0, 2, 5⟩ ⟨4, 2, 5⟩ (2 / 3) := by
    refine ⟨?_, by norm_num, by norm_num, 7 / 12, by norm_num, by norm_num, ?_, ?_⟩
    · have : slant (⟨3, 0, 1⟩ : V3 ℝ) ⟨2, 3, 1⟩ ⟨0, 2, 5⟩ ⟨4, 2, 5⟩ = -12 := by simp [slant]; norm_num
      rw [this]; norm_num
    · simp [edgeAt, V3.smul, V3.xy]; norm_num
    · simp [edgeAt, V3.smul]; norm_num
  refine ⟨by norm_num, Or.inr ⟨_, _, Or.inl rfl, hp⟩, Or.inl ⟨rfl, ?_⟩, Or.inl ?_, Or.inr rfl, ?_⟩
  · simp [BehindBy, V3.dot, leftOf]; norm_num
  · right; left; simp [leftOf]; norm_num
  · intro c d h
    simp only [Tri.HasSide, Prod.mk.injEq] at h
    rcases h with ⟨rfl, rfl⟩ | ⟨rfl, rfl⟩ | ⟨rfl, rfl⟩ | ⟨rfl, rfl⟩ | ⟨rfl, rfl⟩ | ⟨rfl, rfl⟩
    · exact Or.inr (Or.inr (Or.inr ⟨_, le_rfl, by norm_num, hp⟩))
    · left; right; right; left; simp [leftOf]; norm_num
    · left; right; right; left; simp [leftOf]; norm_num
    · exact Or.inr (Or.inr (Or.inr ⟨_, le_rfl, by norm_num, hp.flip⟩))
    · left; right; right; right; simp [leftOf]; norm_num
    · left; right; right; right; simp [leftOf]; norm_num

/-- A run of the program, in double arithmetic with rounding to nearest, that meets the premises of `C86_program`; its model file describes a body an edge of
which is partly in view. -/
example : SortOK flEnv.sorter ∧ flEnv.junkM = ⟨V3.zero, V3.zero, V3.zero⟩ ∧ duoDisk.ident c!"s" ≠ duoDisk.ident c!"o" ∧
    (∀ text (doc : Doc F64), duoDisk.read c!"s" = some text → parse text = .ok (some doc) →
      (∀ m ∈ doc.models, ∀ ps, Places flEnv.loadPath m.source ps → ∀ p ∈ ps, duoDisk.ident p ≠ duoDisk.ident c!"o") ∧
      SaneModels 3 flEnv.loadPath duoDisk doc.models ∧ ∀ pg ∈ doc.pages, (∀ t, titled pg.metas t → t.length ≤ 2 ^ 32) ∧
        (∀ s ms line, Drawable.text s ms line ∈ pg.draws → s.length < 2 ^ 32) ∧
        ∀ name ms dims line, Drawable.draw name ms dims line ∈ pg.draws → dims = [] ∧ TameView ms ∧ TameScale ms) ∧
    OneLine flEnv.name ∧ OneLine c!"s" ∧ OneLine flEnv.now ∧ (mainRun flEnv duoDisk c!"s" c!"o").1 = .ok 0 ∧
    duoDisk.read c!"/x" = some duoText ∧ AskedView ([] : List (Meta F64)) ⟨⟨1, 0, 0⟩, ⟨0, 1, 0⟩, ⟨0, 0, 1⟩⟩ ∧
    ∃ us, Describes (2 ^ 3) duoText us ∧ VisibleAt (1 / 2 ^ 20) (2 ^ 3) ⟨⟨1, 0, 0⟩, ⟨0, 1, 0⟩, ⟨0, 0, 1⟩⟩ us ⟨3, 0, 1⟩ ⟨2, 3, 1⟩ (1 / 3) := by
  refine ⟨insSorter_ok, rfl, by decide, ?_, by unfold OneLine; decide, by unfold OneLine; decide, by unfold OneLine; decide, ?_, rfl, ?_, ?_⟩
  · intro text doc ht hd
    obtain ⟨d, a, b, c, hp, rfl⟩ := fl_doc
    have hr : duoDisk.read c!"s" = some c!"load m=\"/x\";page{draw m{}}" := rfl
    rw [hr] at ht; cases ht
    rw [hp] at hd; cases hd
    refine ⟨?_, fl_saneModels_of duoDisk rfl duo_sane a, ?_⟩
    · intro m hm ps hps p hpp
      simp only [List.mem_singleton] at hm; subst hm
      rw [paper_places ps hps, List.mem_singleton] at hpp
      subst hpp; decide
    · intro pg hpg
      simp only [List.mem_singleton] at hpg; subst hpg
      refine ⟨?_, by simp, ?_⟩
      · intro t ht
        simp [titled, look] at ht
        subst ht; simp
      · intro name ms dims line h
        simp at h
        obtain ⟨-, rfl, rfl, -⟩ := h
        refine ⟨rfl, by simp [TameView, look], ?_⟩
        intro a b h
        have : (a, b) = ((1, 1) : Int × Int) := by
          simp only [look, scaleOf] at h
          cases h; rfl
        cases this; norm_num
  · obtain ⟨f, hf⟩ := duo_file
    obtain ⟨r, hr, hok⟩ := fl_run_of (duoDisk.write c!"o" []) (text := duoText) rfl (duo_sane.mono (by norm_num)) hf
    have hread : (duoDisk.write c!"o" []).read c!"s" = some c!"load m=\"/x\";page{draw m{}}" := rfl
    unfold mainRun
    rw [if_neg (by decide), if_neg (by decide), if_neg (by decide)]
    simp only [hread, hr, hok, if_true]
  · show viewOf (α := Ext ℝ) none = .ok _
    simp [viewOf, matZP, M3.fin, M3.map, V3.map, ptX, ptY, ptZ, FP.lit]
  · have e1 : (⟨⟨0, 0, 1⟩, ⟨0, 2, 5⟩, ⟨4, 2, 5⟩, ⟨0, 5, 5⟩, 5⟩ : Tri ℝ).seenIn ⟨⟨1, 0, 0⟩, ⟨0, 1, 0⟩, ⟨0, 0, 1⟩⟩ = ⟨⟨0, 0, 1⟩, ⟨0, 2, 5⟩, ⟨4, 2, 5⟩, ⟨0, 5, 5⟩, 5⟩ := by
      simp [Tri.seenIn, V3.mulM]
    have e2 : (⟨⟨0, 0, 1⟩, ⟨1, 0, 1⟩, ⟨3, 0, 1⟩, ⟨2, 3, 1⟩, 1⟩ : Tri ℝ).seenIn ⟨⟨1, 0, 0⟩, ⟨0, 1, 0⟩, ⟨0, 0, 1⟩⟩ = ⟨⟨0, 0, 1⟩, ⟨1, 0, 1⟩, ⟨3, 0, 1⟩, ⟨2, 3, 1⟩, 1⟩ := by
      simp [Tri.seenIn, V3.mulM]
    refine ⟨_, duo_described, ⟨⟨_, List.mem_cons_of_mem _ List.mem_cons_self, ?_, ?_⟩, ?_, ?_, ?_, by norm_num, by norm_num⟩⟩
    · simp [V3.mulM]; norm_num
    · rw [e2]; simp [Tri.HasSide]
    · simp only [List.pairwise_cons, List.mem_singleton, forall_eq, List.not_mem_nil, false_implies, implies_true, List.Pairwise.nil, and_true]
      intro _ _ h
      rw [e1] at h
      simp [Tri.HasSide] at h
    · intro f hf _
      simp only [List.mem_cons, List.not_mem_nil, or_false] at hf
      rcases hf with rfl | rfl
      · rw [e1]; exact Or.inr ⟨_, _, duo_part, Or.inl (by norm_num)⟩
      · rw [e2]; left; left; simp [Tri.HasSide]
    · unfold FarApart; norm_num

end S2P
