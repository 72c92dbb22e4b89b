import Verif.Spec.Output
import Verif.Lemmas.PostScript
import Verif.Lemmas.PsNumber

set_option linter.unusedSectionVars false
set_option linter.unusedVariables false
set_option linter.unusedSimpArgs false

/-! # The tokens of the output -/

namespace S2P
namespace PS

theorem Reads.lit {t : Str} (ts : List Tok) (h : St.reads ⟨[], .gap⟩ t = ⟨ts, .gap⟩) : Reads t ts := reads_of t ts h

theorem Reads.flatMap {β : Type} (f : β → Str) (g : β → List Tok) (l : List β) (h : ∀ b ∈ l, Reads (f b) (g b)) :
    Reads (l.flatMap f) (l.flatMap g) := by
  induction l with
  | nil => exact Reads.nil
  | cons b l ih =>
    rw [List.flatMap_cons, List.flatMap_cons]
    exact (h b List.mem_cons_self).app (ih (fun c hc => h c (List.mem_cons_of_mem _ hc)))

theorem substitute_plain (a : Str) (args : List Str) (ha : '$' ∉ a) : substitute a args = a := by
  induction a with
  | nil => rfl
  | cons c a ih =>
    have hc : c ≠ '$' := fun h => ha (h ▸ List.mem_cons_self)
    rw [substitute, ih (fun h => ha (List.mem_cons_of_mem _ h))]
    intro d t h1 h2
    exact absurd h1 hc

theorem substitute_arg (a b : Str) (d : Char) (args : List Str) (ha : '$' ∉ a) (hd : isDigit d = true) :
    substitute (a ++ '$' :: d :: b) args = a ++ (args.getD (d.toNat - 48) [] ++ substitute b args) := by
  induction a with
  | nil => simp [substitute, hd]
  | cons c a ih =>
    have hc : c ≠ '$' := fun h => ha (h ▸ List.mem_cons_self)
    rw [List.cons_append, substitute, ih (fun h => ha (List.mem_cons_of_mem _ h))]
    · rfl
    · intro d' t h1 h2
      exact absurd h1 hc

section
variable {K : Type} [Field K] [LinearOrder K] [IsStrictOrderedRing K] [FloorRing K] [Trans K]

theorem reads_g6 (a : Ext K) : Reads (FP.g6 a ++ c!" ") [.exec (FP.g6 a)] :=
  reads_word _ (g6_regular a).1 (g6_regular a).2 ' ' (by decide)

theorem reads_lineLine (l : Line (Ext K)) : Reads (lineLine l) (lineToks l) := by
  have h : lineLine l = c!"newpath " ++ ((FP.g6 l.o.x ++ c!" ") ++ ((FP.g6 l.o.y ++ c!" ") ++ (c!"moveto " ++
      ((FP.g6 l.t.x ++ c!" ") ++ ((FP.g6 l.t.y ++ c!" ") ++ c!"lineto stroke\n"))))) := by
    simp [lineLine, substitute, isDigit]
  rw [h]
  exact (Reads.lit [x c!"newpath"] (by decide +kernel)).app ((reads_g6 _).app ((reads_g6 _).app
    ((Reads.lit [x c!"moveto"] (by decide +kernel)).app ((reads_g6 _).app ((reads_g6 _).app
      (Reads.lit [x c!"lineto", x c!"stroke"] (by decide +kernel)))))))

theorem reads_arcLine (a : Arc (Ext K)) : Reads (arcLine a) (arcToks a) := by
  have h : arcLine a = c!"newpath " ++ ((FP.g6 a.center.x ++ c!" ") ++ ((FP.g6 a.center.y ++ c!" ") ++ ((FP.g6 a.r ++ c!" ") ++
      ((FP.g6 (a.start * FP.lit 180 / piLit) ++ c!" ") ++ ((FP.g6 (a.stop * FP.lit 180 / piLit) ++ c!" ") ++ c!"arc stroke\n"))))) := by
    simp [arcLine, substitute, isDigit]
  rw [h]
  exact (Reads.lit [x c!"newpath"] (by decide +kernel)).app ((reads_g6 _).app ((reads_g6 _).app ((reads_g6 _).app
    ((reads_g6 _).app ((reads_g6 _).app (Reads.lit [x c!"arc", x c!"stroke"] (by decide +kernel)))))))

theorem reads_textLine (t : PsText (Ext K)) (ht : Harmless t) : Reads (textLine t) (textToks t) := by
  have hs : Reads ('(' :: (if t.raw then t.str else escapeText t.str) ++ [')']) [.str (shown t)] := by
    unfold shown
    by_cases hr : t.raw = true
    · obtain ⟨u, hu, hu'⟩ := ht hr
      rw [if_pos hr, if_pos hr, hu']
      exact reads_diameter u hu
    · rw [if_neg hr, if_neg hr]
      exact reads_literal _
  have h : textLine t = c!"newpath " ++ ((FP.g6 t.at_.x ++ c!" ") ++ ((FP.g6 t.at_.y ++ c!" ") ++ (c!"moveto " ++
      (('(' :: (if t.raw then t.str else escapeText t.str) ++ [')']) ++ ((if t.center then c!" CenterText" else []) ++ c!" show\n"))))) := by
    cases hc : t.center <;> simp [textLine, substitute, isDigit, hc]
  have hf : Reads ((if t.center then c!" CenterText" else []) ++ c!" show\n") ((if t.center then [x c!"CenterText"] else []) ++ [x c!"show"]) := by
    cases t.center <;> exact Reads.lit _ (by decide +kernel)
  rw [h]
  exact (Reads.lit [x c!"newpath"] (by decide +kernel)).app ((reads_g6 _).app ((reads_g6 _).app
    ((Reads.lit [x c!"moveto"] (by decide +kernel)).app (hs.app hf))))

theorem natStr_line (n : Nat) : OneLine (natStr n) := by
  intro c hc
  have := dec_regular ((natDigits_spec n).2.1 c hc)
  revert this
  simp only [isRegular, isSpace, endsComment, isNl, Bool.and_eq_true, Bool.not_eq_true', Bool.or_eq_false_iff]
  tauto

theorem OneLine.app {a b : Str} (ha : OneLine a) (hb : OneLine b) : OneLine (a ++ b) := by
  intro c hc
  rcases List.mem_append.mp hc with h | h
  · exact ha c h
  · exact hb c h

theorem reads_pageStart (i n : Nat) : Reads (substitute pageFmt [natStr i, natStr n]) pageStart := by
  have h : substitute pageFmt [natStr i, natStr n] = c!"\n%%%%%%%%% Start of page " ++ (natStr i ++ c!" of " ++ natStr n) ++
      (c!"\n<< /PageSize [792 612] >> setpagedevice % letter/landscape\n\n.1 setlinewidth\n% draw border\n" ++
       c!"newpath 5 5 moveto 5 607 lineto 787 607 lineto 787 5 lineto 5 5 lineto stroke\n") := by
    have e : pageFmt = c!"\n%%%%%%%%% Start of page " ++ '$' :: '0' :: (c!" of " ++ '$' :: '1' :: (c!"\n<< /PageSize [792 612] >> setpagedevice % letter/landscape\n\n.1 setlinewidth\n% draw border\n" ++
       c!"newpath 5 5 moveto 5 607 lineto 787 607 lineto 787 5 lineto 5 5 lineto stroke\n")) := by decide +kernel
    rw [e, substitute_arg _ _ _ _ (by decide +kernel) rfl, substitute_arg _ _ _ _ (by decide +kernel) rfl, substitute_plain _ _ (by decide +kernel)]
    simp only [List.append_assoc]
    rfl
  rw [h]
  exact comment_reads _ _ _ [] pageStart (((natStr_line i).app (by unfold OneLine; decide)).app (natStr_line n)) (by decide +kernel) (by decide +kernel)

theorem reads_pageHeader (E : Env (Ext K)) (i n : Nat) : Reads (pageHeader E i n) (pageStart ++ cornerToks E i n) := by
  unfold pageHeader
  refine (reads_pageStart i n).app ?_
  have key : ∀ s : Str, Reads (textToPs [(⟨⟨FP.lit 7, FP.lit 7⟩, s, false, false⟩ : PsText (Ext K))])
      [x c!"newpath", x (FP.g6 (FP.lit 7 : Ext K)), x (FP.g6 (FP.lit 7 : Ext K)), x c!"moveto", .str (eol s), x c!"show"] := by
    intro s
    have := reads_textLine (⟨⟨FP.lit 7, FP.lit 7⟩, s, false, false⟩ : PsText (Ext K)) (by intro h; simp at h)
    simpa [textToPs, textToks, shown] using this
  unfold cornerToks cornerLabel pageMeta
  cases E.timestamp <;> cases E.numberPages
  · simpa using Reads.nil
  · simpa [joinSp] using key _
  · simpa [joinSp] using key _
  · simpa [joinSp] using key _

theorem reads_page (E : Env (Ext K)) (i n : Nat) (P : OutPage (Ext K)) (hP : ∀ t ∈ P.text, Harmless t) :
    Reads (pageHeader E i n ++ textToPs P.text ++ arcToPs P.arcs ++ linesToPs P.lines ++ pageFooter) (pageToks E n i P) :=
  ((((reads_pageHeader E i n).app (Reads.flatMap _ _ _ (fun t ht => reads_textLine t (hP t ht)))).app
    (Reads.flatMap _ _ _ (fun a _ => reads_arcLine a))).app (Reads.flatMap _ _ _ (fun l _ => reads_lineLine l))).app
    (Reads.lit [x c!"showpage"] (by decide +kernel))

theorem reads_renderFrom (E : Env (Ext K)) (n : Nat) (Ps : List (OutPage (Ext K))) (hP : ∀ P ∈ Ps, ∀ t ∈ P.text, Harmless t) : ∀ k,
    Reads (renderFrom E n k Ps) (pagesToks E n (k + 1) Ps) := by
  induction Ps with
  | nil => intro k; exact Reads.nil
  | cons P Ps ih =>
    intro k
    exact (reads_page E (k + 1) n P (hP P List.mem_cons_self)).app (ih (fun Q hQ => hP Q (List.mem_cons_of_mem _ hQ)) (k + 1))

end

theorem header_reads {α : Type} [FP α] (E : Env α) (src : Str) (us : List Tok)
    (h1 : Reads (c!"% generated by stl-to-ps\n% Name: " ++ E.name ++ c!"\n") us) (h2 : OneLine src) (h3 : OneLine E.now) :
    Reads (documentHeader E src) (us ++ prologue) := by
  obtain ⟨b4, b5, e, n4, n5, r4, r5⟩ : ∃ b4 b5, docFmt = c!"% generated by stl-to-ps\n% Name: " ++ '$' :: '0' :: (c!"\n% Source: " ++ '$' :: '1' :: (c!"\n% Time: " ++ '$' :: '2' ::
      (b4 ++ '$' :: '3' :: b5))) ∧ '$' ∉ b4 ∧ '$' ∉ b5 ∧
      St.reads ⟨[], .comment⟩ b4 = ⟨prologue.take 2, .gap⟩ ∧
      Reads (natStr kFontSize ++ b5 ++ c!"\n") (prologue.drop 2) := by
    have e8 : natStr kFontSize = c!"8" := by simp [natStr, kFontSize, Ext.natDigits]
    rw [e8]
    refine ⟨(docFmt.drop 59).take 36, docFmt.drop 97, by decide +kernel, by decide +kernel, by decide +kernel, by decide +kernel, reads_of _ _ (by decide +kernel)⟩
  have h : documentHeader E src = (c!"% generated by stl-to-ps\n% Name: " ++ E.name ++ c!"\n") ++ ((c!"% Source: " ++ src ++ c!"\n") ++
      ((c!"% Time: " ++ E.now ++ b4) ++ (natStr kFontSize ++ b5 ++ c!"\n"))) := by
    rw [documentHeader, e, substitute_arg _ _ _ _ (by decide +kernel) rfl, substitute_arg _ _ _ _ (by decide +kernel) rfl,
      substitute_arg _ _ _ _ (by decide +kernel) rfl, substitute_arg _ _ _ _ n4 rfl, substitute_plain _ _ n5]
    simp
  rw [h]
  exact h1.app
    ((comment_reads _ _ _ [] [] h2 (by decide +kernel) (by decide +kernel)).app
    ((comment_reads _ _ _ [] (prologue.take 2) h3 (by decide +kernel) r4).app r5))

theorem reads_documentHeader {α : Type} [FP α] (E : Env α) (src : Str) (h1 : OneLine E.name) (h2 : OneLine src) (h3 : OneLine E.now) :
    Reads (documentHeader E src) prologue :=
  header_reads E src [] (comment_reads _ _ _ [] [] h1 (by decide +kernel) (by decide +kernel)) h2 h3

end PS
end S2P
