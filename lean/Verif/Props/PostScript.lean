import Verif.Spec.Injection
import Verif.Props.Paint
import Verif.Props.Labels
import Verif.Props.Blocks

set_option linter.unusedSectionVars false
set_option linter.unusedVariables false
set_option linter.unusedSimpArgs false

/-! # C32-C34, C36, C37: the output as PostScript text -/

namespace S2P
namespace PS

/-! ## C32: texts -/

/-- Any text at all is written as one string, and the scanner is between tokens after it: nothing in the text can end the string or be
executed.  The string is the text, except that PostScript reads a carriage return, alone or before a line feed, as a line feed. -/
theorem C32_literal (s : Str) : Reads ('(' :: escapeText s ++ [')']) [.str (eol s)] := reads_literal s

/-- As above for a whole text command: a place, one string, and then `show`. -/
theorem C32_command {K : Type} [Field K] [LinearOrder K] [IsStrictOrderedRing K] [FloorRing K] [Trans K] (at_ : V2 (Ext K)) (s : Str) (center : Bool) :
    Reads (textLine ⟨at_, s, center, false⟩)
      ([.exec c!"newpath", .exec (FP.g6 at_.x), .exec (FP.g6 at_.y), .exec c!"moveto", .str (eol s)] ++
       (if center then [.exec c!"CenterText"] else []) ++ [.exec c!"show"]) :=
  reads_textLine ⟨at_, s, center, false⟩ (by intro h; cases h)

/-- C32, as far as it goes: a text without carriage returns is read back exactly.  Missing: texts with carriage returns, for which it is
false (`C32_false`). -/
theorem C32_exact_partial (s : Str) (h : ∀ c ∈ s, c.toNat ≠ 13) : scan ('(' :: escapeText s ++ [')']) = some [.str s] := by
  have := (reads_literal s).scan
  rwa [eol_plain s h] at this

/-- C32 is false: a carriage return is read back as a line feed. -/
theorem C32_false : ∃ s, scan ('(' :: escapeText s ++ [')']) ≠ some [.str s] := ⟨['a', '\r', 'b'], by decide +kernel⟩

/-- a text that would be trouble unescaped -/
example : (∀ c ∈ c!") show showpage (\\", c.toNat ≠ 13) ∧ scan c!"() show showpage (\\)" ≠ some [.str c!") show showpage (\\"] := by decide +kernel

/-! ## C33: labels of dimensions -/

section
variable {α : Type} [FP α]

theorem formatOf_plain (E : Env α) (hE : FormatsPlain E) (ms : List (Meta α)) (h : PlainFormat ms) (g) (hg : formatOf E c!"%.3f" ms = some g) :
    ∀ x, Plain (g x) := by
  unfold formatOf at hg
  cases hm : look ms c!"fmt" with
  | none =>
    rw [hm] at hg
    injection hg with hg
    subst hg
    cases hd : E.fmtF c!"%.3f" with
    | none => intro x; simp [Plain]
    | some g => exact hE _ _ hd (by unfold Plain; decide)
  | some m =>
    rw [hm] at hg
    cases hv : m.val with
    | str f =>
      simp only [hv] at hg
      exact hE f g hg (h m f hm hv)
    | _ => simp only [hv] at hg; cases hg

/-- which texts of a dimension are written raw: only a diameter's, and then the diameter sign comes before the formatted number -/
theorem items_raw (E : Env α) (v : Vis α) (k : DimKind) (ms : List (Meta α)) (P : OutPage α) (h : drawnItems E v k ms = some P) :
    ∀ t ∈ P.text, t.raw = true → k = .dia ∧ ∃ g q, formatOf E c!"%.3f" ms = some g ∧ t.str = c!"\\351" ++ g q := by
  have hcirc : ∀ (items : (α → Str) → α → Circ α → OutPage α), drawnItems.circ E v ms items = some P →
      ∃ g c, formatOf E c!"%.3f" ms = some g ∧ P = items g v.scale c := by
    intro items h
    simp only [drawnItems.circ, bind, Option.bind] at h
    cases h1 : pointOf E v 0 ms c!"at" with
    | none => rw [h1] at h; cases h
    | some a =>
    cases h2 : pointOf E v 1 ms c!"center" with
    | none => rw [h1, h2] at h; cases h
    | some c =>
    cases h3 : pointOf E v 2 ms c!"dir" with
    | none => rw [h1, h2, h3] at h; cases h
    | some d =>
    cases h4 : formatOf E c!"%.3f" ms with
    | none => rw [h1, h2, h3, h4] at h; cases h
    | some g =>
    rw [h1, h2, h3, h4] at h
    dsimp only at h
    split at h
    · cases h
    cases h5 : locate v.points c.xy with
    | none => rw [h5] at h; cases h
    | some kk =>
      rw [h5] at h
      injection h with h
      exact ⟨g, _, rfl, h.symm⟩
  cases k
  · simp only [drawnItems, Option.bind_eq_bind, Option.bind_eq_some_iff] at h
    obtain ⟨a, -, b, -, f, -, t, -, g, -, h⟩ := h
    repeat' split at h
    all_goals first
      | cases h; done
      | (injection h with h; subst h; intro t ht hr; simp only [angleItems, List.mem_singleton] at ht; subst ht; cases hr)
  · obtain ⟨g, c, h1, rfl⟩ := hcirc _ h
    intro t ht hr
    simp only [diaItems, List.mem_singleton] at ht
    subst ht
    exact ⟨rfl, g, _, h1, rfl⟩
  · simp only [drawnItems, Option.bind_eq_bind, Option.bind_eq_some_iff] at h
    obtain ⟨a, -, b, -, f, -, t, -, g, -, h⟩ := h
    repeat' split at h
    all_goals first
      | cases h; done
      | (injection h with h; subst h; intro t ht hr; simp only [dimItems, List.mem_singleton] at ht; subst ht; cases hr)
  · obtain ⟨g, c, h1, rfl⟩ := hcirc _ h
    intro t ht hr
    simp only [radItems, List.mem_singleton] at ht
    subst ht
    cases hr

/-- the same after the drawing is put on the page -/
theorem dim_raw (E : Env α) (v : Vis α) (d : DimN α) (hr : v.rotation.eqv E.junkM = false) (ok : Bool) (P : OutPage α) (L : List Diag)
    (h : dimContent E v d = .ok (ok, P, L)) :
    ∀ t ∈ P.text, t.raw = true → d.kind = .dia ∧ ∃ g q, formatOf E c!"%.3f" d.metas = some g ∧ t.str = c!"\\351" ++ g q := by
  obtain ⟨i1, i2⟩ := dimContent_items E v d hr
  by_cases hg : GoodDim d.kind d.metas
  · cases hit : drawnItems E v d.kind d.metas with
    | none =>
      obtain ⟨L', e⟩ := i2 (Or.inr hit)
      rw [h] at e; cases e
      intro t ht; cases ht
    | some Q =>
      obtain ⟨L', e⟩ := i1 Q hg hit
      rw [h] at e; cases e
      intro t ht hraw
      simp only [OutPage.moved, List.mem_map] at ht
      obtain ⟨u, hu, rfl⟩ := ht
      exact items_raw E v _ _ Q hit u hu hraw
  · obtain ⟨L', e⟩ := i2 (Or.inl hg)
    rw [h] at e; cases e
    intro t ht; cases ht
end

section
variable {K : Type} [Field K] [LinearOrder K] [IsStrictOrderedRing K] [FloorRing K] [Trans K]

/-- Whatever the format, every label that `rad`, `dim` and `angle` put on a page is written as a place, one string that is the label, and
the operators that show it. -/
theorem C33_labels (E : Env (Ext K)) (v : Vis (Ext K)) (d : DimN (Ext K)) (hr : v.rotation.eqv E.junkM = false) (ok : Bool)
    (P : OutPage (Ext K)) (L : List Diag) (h : dimContent E v d = .ok (ok, P, L)) (hk : d.kind ≠ .dia) (t : PsText (Ext K)) (ht : t ∈ P.text) :
    Reads (textLine t) ([.exec c!"newpath", .exec (FP.g6 t.at_.x), .exec (FP.g6 t.at_.y), .exec c!"moveto", .str (eol t.str)] ++
       (if t.center then [.exec c!"CenterText"] else []) ++ [.exec c!"show"]) := by
  have hraw : t.raw = false := by
    cases hb : t.raw with
    | false => rfl
    | true => exact absurd (dim_raw E v d hr ok P L h t ht hb).1 hk
  have := reads_textLine t (by intro h; rw [hraw] at h; cases h)
  rwa [textToks, shown, if_neg (by rw [hraw]; simp)] at this

/-- C33 for diameters, as far as it goes: with a format free of parentheses, backslashes and carriage returns the label is one string, the
diameter sign and the formatted number.  Missing: other formats, for which it is false (`C33_false`). -/
theorem C33_dia_partial (E : Env (Ext K)) (hE : FormatsPlain E) (v : Vis (Ext K)) (d : DimN (Ext K)) (hr : v.rotation.eqv E.junkM = false) (ok : Bool)
    (P : OutPage (Ext K)) (L : List Diag) (h : dimContent E v d = .ok (ok, P, L)) (hk : d.kind = .dia) (hf : PlainFormat d.metas)
    (t : PsText (Ext K)) (ht : t ∈ P.text) (hraw : t.raw = true) :
    ∃ g q, formatOf E c!"%.3f" d.metas = some g ∧
    Reads (textLine t) ([.exec c!"newpath", .exec (FP.g6 t.at_.x), .exec (FP.g6 t.at_.y), .exec c!"moveto", .str (Char.ofNat 233 :: g q)] ++
       (if t.center then [.exec c!"CenterText"] else []) ++ [.exec c!"show"]) := by
  obtain ⟨-, g, q, hg, hs⟩ := dim_raw E v d hr ok P L h t ht hraw
  refine ⟨g, q, hg, ?_⟩
  have := reads_textLine t (by intro _; exact ⟨g q, formatOf_plain E hE _ hf g hg q, hs⟩)
  rw [textToks, shown, if_pos hraw, hs] at this
  exact this

end

theorem natStr_plain (n : Nat) : Plain (natStr n) := by
  intro c hc
  have h := (natDigits_spec n).2.1 c hc
  simp only [isDec, Bool.and_eq_true, decide_eq_true_eq] at h
  have : ∀ d : Char, d.toNat < 48 → c ≠ d := by rintro d hd rfl; omega
  have : ∀ d : Char, 57 < d.toNat → c ≠ d := by rintro d hd rfl; omega
  refine ⟨?_, ?_, ?_, by omega⟩ <;> first | (apply ‹∀ d : Char, d.toNat < 48 → c ≠ d›; decide) | (apply ‹∀ d : Char, 57 < d.toNat → c ≠ d›; decide)

theorem Plain.app {a b : Str} (ha : Plain a) (hb : Plain b) : Plain (a ++ b) := by
  intro c hc
  rcases List.mem_append.mp hc with h | h
  · exact ha c h
  · exact hb c h

theorem showE_plain (q : Ext ℚ) : Plain (showE q) := by
  cases q with
  | fin q =>
    refine Plain.app ?_ (natStr_plain _)
    split <;> (unfold Plain; decide)
  | pinf => exact (by unfold Plain; decide : Plain c!"inf")
  | ninf => exact (by unfold Plain; decide : Plain c!"-inf")
  | nan => exact (by unfold Plain; decide : Plain c!"nan")

/-- the sample environment formats as required of environments -/
theorem exEnv_plain : FormatsPlain exEnv := by
  intro f g hg hf q
  simp only [exEnv] at hg
  split at hg
  · cases hg; exact showE_plain q
  · split at hg
    · cases hg
      refine Plain.app (fun c hc => hf c ?_) (showE_plain q)
      exact List.mem_of_mem_dropLast (List.mem_of_mem_dropLast hc)
    · cases hg

/-- a diameter with a format that is not plain, and one with a plain format -/
def exDia (f : Str) : DimN (Ext ℚ) :=
  ⟨.dia, [⟨c!"center", pt 1 1 0, 1⟩, ⟨c!"dir", pt 1 0 0, 1⟩, ⟨c!"at", pt 2 2 0, 1⟩, ⟨c!"fmt", .str f, 1⟩], 1⟩

/-- C33 is false for diameters: a parenthesis in the format ends the string, and what follows it is executed. -/
theorem C33_false : ∃ (E : Env (Ext ℚ)) (v : Vis (Ext ℚ)) (d : DimN (Ext ℚ)) (P : OutPage (Ext ℚ)) (L : List Diag) (t : PsText (Ext ℚ)) (us : List Tok),
    FormatsPlain E ∧ d.kind = .dia ∧ dimContent E v d = .ok (true, P, L) ∧ t ∈ P.text ∧ Reads (textLine t) us ∧ .exec c!"showpage" ∈ us := by
  have h : (dimContent exEnv sightVis (exDia c!") showpage (%f")).map (fun c => (c.1, c.2.1.text.map (fun t => (t.raw, t.center)))) = .ok (true, [(true, true)]) := by
    decide +kernel
  cases hc : dimContent exEnv sightVis (exDia c!") showpage (%f") with
  | error a => rw [hc] at h; cases h
  | ok c =>
    obtain ⟨ok, P, L⟩ := c
    rw [hc] at h
    simp only [Except.map, Except.ok.injEq, Prod.mk.injEq] at h
    obtain ⟨rfl, h⟩ := h
    obtain ⟨t, hP, htr⟩ : ∃ t, P.text = [t] ∧ t.raw = true ∧ t.center = true := by
      obtain ⟨t, hP, h⟩ := List.map_eq_singleton_iff.1 h
      rw [Prod.mk.injEq] at h
      exact ⟨t, hP, h⟩
    have ht : t ∈ P.text := by rw [hP]; exact List.mem_singleton_self t
    obtain ⟨-, g, q, hg, hs⟩ := dim_raw exEnv sightVis _ (by decide +kernel) true P L hc t ht htr.1
    have hg' : formatOf exEnv c!"%.3f" (exDia c!") showpage (%f").metas = some (fun x => c!") showpage (" ++ showE x) := rfl
    rw [hg'] at hg
    injection hg with hg
    subst hg
    refine ⟨exEnv, sightVis, _, P, L, t, [x c!"newpath", x (FP.g6 t.at_.x), x (FP.g6 t.at_.y), x c!"moveto", .str [Char.ofNat 233], x c!"showpage", .str (showE q), x c!"CenterText", x c!"show"], exEnv_plain, rfl, hc, ht, ?_, by simp⟩
    have e : textLine t = c!"newpath " ++ ((FP.g6 t.at_.x ++ c!" ") ++ ((FP.g6 t.at_.y ++ c!" ") ++ (c!"moveto (\\351) showpage " ++
      (('(' :: escapeText (showE q) ++ [')']) ++ c!" CenterText show\n")))) := by
      have he : escapeText (showE q) = showE q := by
        have := showE_plain q
        revert this
        generalize showE q = u
        intro hu
        induction u with
        | nil => rfl
        | cons c u ih =>
          obtain ⟨h1, h2, h3, -⟩ := hu c List.mem_cons_self
          rw [escapeText_cons, ih (fun d hd => hu d (List.mem_cons_of_mem _ hd)), if_neg (by simp [h1, h2, h3])]
          rfl
      rw [he]
      simp [textLine, substitute, isDigit, htr, hs]
    rw [e]
    have hp : eol (showE q) = showE q := eol_plain _ (fun c hc => (showE_plain q c hc).2.2.2)
    have hl := reads_literal (showE q)
    rw [hp] at hl
    exact (Reads.lit [x c!"newpath"] (by decide +kernel)).app ((reads_g6 _).app ((reads_g6 _).app
      ((Reads.lit [x c!"moveto", .str [Char.ofNat 233], x c!"showpage"] (by decide +kernel)).app (hl.app
        (Reads.lit [x c!"CenterText", x c!"show"] (by decide +kernel))))))

/-- the premises occur: a dimension and a diameter that are accepted and labelled -/
example : exVis.rotation.eqv exEnv.junkM = false ∧ exDim.kind ≠ .dia ∧
    (dimContent exEnv exVis exDim).map (fun c => c.2.1.text.length) = .ok 1 := by decide +kernel
example : FormatsPlain exEnv ∧ PlainFormat (exDia c!"d=%f").metas ∧
    (dimContent exEnv sightVis (exDia c!"d=%f")).map (fun c => c.2.1.text.map (fun t => t.raw)) = .ok [true] := by
  refine ⟨exEnv_plain, ?_, by decide +kernel⟩
  intro m f hm hv
  have : look (exDia c!"d=%f").metas c!"fmt" = some ⟨c!"fmt", .str c!"d=%f", 1⟩ := by decide +kernel
  rw [this] at hm
  cases hm
  cases hv
  unfold Plain
  decide

/-! ## C34: the header -/

/-- C34, as far as it goes: if the image name, the script's path and the time have no line break (line feed, carriage return or form
feed), the header is the fixed prologue and nothing else.  Missing: other names, for which it is false (`C34_false`). -/
theorem C34_prologue_partial {α : Type} [FP α] (E : Env α) (src : Str) (h1 : OneLine E.name) (h2 : OneLine src) (h3 : OneLine E.now) :
    Reads (documentHeader E src) prologue := reads_documentHeader E src h1 h2 h3

/-- C34 is false: a line feed in the image name ends the comment, and what follows is executed. -/
theorem C34_false : ∃ (E : Env (Ext ℚ)) (src : Str), OneLine src ∧ OneLine E.now ∧
    Reads (documentHeader E src) (.exec c!"showpage" :: prologue) := by
  refine ⟨{ exEnv with name := c!"x\nshowpage" }, c!"s", by unfold OneLine; decide, by unfold OneLine; decide, ?_⟩
  exact header_reads _ _ [.exec c!"showpage"] (Reads.lit _ (by decide +kernel)) (by unfold OneLine; decide) (by unfold OneLine; decide)

example : OneLine exEnv.name ∧ OneLine c!"dir/part 1.script" ∧ OneLine exEnv.now := by unfold OneLine; decide

/-! ## C36: the pages of the output -/

section
variable {K : Type} [Field K] [LinearOrder K] [IsStrictOrderedRing K] [FloorRing K] [Trans K]

theorem g6_ne_showpage (a : Ext K) : FP.g6 a ≠ c!"showpage" := by
  cases a with
  | fin k =>
    obtain ⟨q, h, -⟩ := show6_reads k
    intro e
    change Ext.show6 k = _ at e
    rw [e] at h
    have : readNum c!"showpage" = none := by decide +kernel
    rw [this] at h
    cases h
  | pinf => exact (by decide : c!"inf" ≠ c!"showpage")
  | ninf => exact (by decide : c!"-inf" ≠ c!"showpage")
  | nan => exact (by decide : c!"nan" ≠ c!"showpage")

theorem count_zero_flatMap {β : Type} (f : β → List Tok) (l : List β) (h : ∀ b ∈ l, x c!"showpage" ∉ f b) : x c!"showpage" ∉ l.flatMap f := by
  intro hm
  obtain ⟨b, hb, hm⟩ := List.mem_flatMap.1 hm
  exact h b hb hm

theorem page_count (E : Env (Ext K)) (n i : Nat) (P : OutPage (Ext K)) : (pageToks E n i P).count (x c!"showpage") = 1 := by
  have g := fun a : Ext K => (g6_ne_showpage a).symm
  have h1 : x c!"showpage" ∉ pageStart := by decide
  have h2 : x c!"showpage" ∉ cornerToks E i n := by
    unfold cornerToks
    split
    · simp
    · simp [x, g]
  have h3 : x c!"showpage" ∉ P.text.flatMap textToks := count_zero_flatMap _ _ (fun t _ => by
    unfold textToks
    split <;> simp [x, g])
  have h4 : x c!"showpage" ∉ P.arcs.flatMap arcToks := count_zero_flatMap _ _ (fun t _ => by simp [arcToks, x, g])
  have h5 : x c!"showpage" ∉ P.lines.flatMap lineToks := count_zero_flatMap _ _ (fun t _ => by simp [lineToks, x, g])
  unfold pageToks
  simp only [List.count_append, List.count_eq_zero_of_not_mem h1, List.count_eq_zero_of_not_mem h2, List.count_eq_zero_of_not_mem h3,
    List.count_eq_zero_of_not_mem h4, List.count_eq_zero_of_not_mem h5]
  simp

/-- The output is the header and then one block per page, in order.  Block `i` announces itself as page `i` of `n`, stands for the tokens
of that page, and puts out a page exactly once, at its end. -/
theorem C36_blocks (E : Env (Ext K)) (src : Str) (Ps : List (OutPage (Ext K))) (hraw : ∀ P ∈ Ps, ∀ t ∈ P.text, Harmless t) :
    ∃ blocks : List Str, renderPages E src Ps = documentHeader E src ++ blocks.flatten ∧ blocks.length = Ps.length ∧
      ∀ i P b, Ps[i]? = some P → blocks[i]? = some b → PageBlock (i + 1) Ps.length (pageToks E Ps.length (i + 1) P) b := by
  have key : ∀ (n : Nat) (Ps : List (OutPage (Ext K))), (∀ P ∈ Ps, ∀ t ∈ P.text, Harmless t) → ∀ k, ∃ blocks : List Str,
      renderFrom E n k Ps = blocks.flatten ∧ blocks.length = Ps.length ∧
      ∀ i P b, Ps[i]? = some P → blocks[i]? = some b → PageBlock (k + i + 1) n (pageToks E n (k + i + 1) P) b := by
    intro n Ps
    induction Ps with
    | nil => intro _ k; exact ⟨[], rfl, rfl, by simp⟩
    | cons P Ps ih =>
      intro hraw k
      obtain ⟨bs, h1, h2, h3⟩ := ih (fun Q hQ => hraw Q (List.mem_cons_of_mem _ hQ)) (k + 1)
      refine ⟨(pageHeader E (k + 1) n ++ textToPs P.text ++ arcToPs P.arcs ++ linesToPs P.lines ++ pageFooter) :: bs, ?_, by simp [h2], ?_⟩
      · rw [renderFrom, h1]; rfl
      intro i Q b hQ hb
      cases i with
      | zero =>
        simp only [List.getElem?_cons_zero, Option.some.injEq] at hQ hb
        subst hQ hb
        refine ⟨?_, reads_page E (k + 1) n P (hraw P List.mem_cons_self), page_count E n _ P, by simp [pageToks]⟩
        have e : ∃ r, pageHeader E (k + 1) n = c!"\n%%%%%%%%% Start of page " ++ natStr (k + 1) ++ c!" of " ++ natStr n ++ c!"\n" ++ r := by
          unfold pageHeader
          have e : pageFmt = c!"\n%%%%%%%%% Start of page " ++ '$' :: '0' :: (c!" of " ++ '$' :: '1' :: (c!"\n" ++ pageFmt.drop 34)) := by decide +kernel
          rw [e, substitute_arg _ _ _ _ (by decide +kernel) rfl, substitute_arg _ _ _ _ (by decide +kernel) rfl]
          refine ⟨substitute (pageFmt.drop 34) [natStr (k + 1), natStr n] ++
            (if pageMeta E (k + 1) n = [] then [] else textToPs [(⟨⟨FP.lit 7, FP.lit 7⟩, joinSp (pageMeta E (k + 1) n), false, false⟩ : PsText (Ext K))]), ?_⟩
          simp [substitute]
        obtain ⟨r, e⟩ := e
        exact ⟨r ++ (textToPs P.text ++ arcToPs P.arcs ++ linesToPs P.lines ++ pageFooter), by rw [e]; simp only [List.append_assoc]⟩
      | succ i =>
        simp only [List.getElem?_cons_succ] at hQ hb
        have := h3 i Q b hQ hb
        rwa [show k + 1 + i + 1 = k + (i + 1) + 1 by omega] at this
  obtain ⟨bs, h1, h2, h3⟩ := key Ps.length Ps hraw 0
  refine ⟨bs, by rw [renderPages, h1], h2, fun i P b hP hb => ?_⟩
  have := h3 i P b hP hb
  rwa [Nat.zero_add] at this

/-! ## C37: the whole output -/

/-- The whole output scans to exactly the intended tokens, for pages whose raw texts are harmless and header fields without line breaks. -/
theorem C37_tokens (E : Env (Ext K)) (src : Str) (Ps : List (OutPage (Ext K))) (hraw : ∀ P ∈ Ps, ∀ t ∈ P.text, Harmless t)
    (h1 : OneLine E.name) (h2 : OneLine src) (h3 : OneLine E.now) : scan (renderPages E src Ps) = some (docToks E Ps) :=
  ((reads_documentHeader E src h1 h2 h3).app (reads_renderFrom E Ps.length Ps hraw 0)).scan

/-- a page with a text, an arc and a line that meets the premises -/
example : ∀ t ∈ ([⟨V2.fin ⟨1, 1⟩, c!"a) showpage (", true, false⟩, ⟨V2.fin ⟨1, 1⟩, c!"\\3514.5", true, true⟩] : List (PsText (Ext ℚ))), Harmless t := by
  simp only [List.mem_cons, List.not_mem_nil, or_false]
  rintro t (rfl | rfl)
  · intro h; cases h
  · intro _; exact ⟨c!"4.5", by unfold Plain; decide, rfl⟩

end

/-! ## Runs of the tool -/

theorem harmless_app {α : Type} [FP α] {P Q : OutPage α} (hP : ∀ t ∈ P.text, Harmless t) (hQ : ∀ t ∈ Q.text, Harmless t) : ∀ t ∈ (P.app Q).text, Harmless t := by
  intro t ht
  rcases List.mem_append.1 ht with h | h
  · exact hP t h
  · exact hQ t h

theorem harmless_sum {α : Type} [FP α] : ∀ {Ps : List (OutPage α)}, (∀ P ∈ Ps, ∀ t ∈ P.text, Harmless t) → ∀ t ∈ (OutPage.sum Ps).text, Harmless t
  | [], _ => by intro t ht; cases ht
  | P :: Ps, h => harmless_app (h P List.mem_cons_self) (harmless_sum (fun Q hQ => h Q (List.mem_cons_of_mem _ hQ)))

theorem textRows_harmless {α : Type} [FP α] : ∀ (ss : List Str) (p : V2 α), ∀ t ∈ textRows p ss, Harmless t
  | [], p, t, ht => by cases ht
  | s :: ss, p, t, ht => by
    unfold textRows at ht
    dsimp only at ht
    split at ht
    · exact textRows_harmless ss _ t ht
    · rcases List.mem_cons.1 ht with rfl | ht
      · intro h; cases h
      · exact textRows_harmless ss _ t ht

theorem content_harmless (E : Env (Ext ℝ)) (hE : FormatsPlain E) (hJ : E.NotAView) (stl : Models (Ext ℝ)) (y : Drawable (Ext ℝ)) (hf : y.IsFin)
    (hp : PlainDia y)
    (c) (h : content E stl y = .ok c) : ∀ t ∈ c.2.1.text, Harmless t := by
  cases y with
  | draw n ms dims l =>
    rcases draw_sum E stl n ms dims l c h with ⟨-, hp', -, -⟩ | ⟨sc, rot, loc, file, proj, ls, cs, hd, hcs, hpg, -⟩
    · rw [hp']; intro t ht; cases ht
    obtain ⟨r, rfl, hr⟩ := viewOf_rotation _ (look_fin hf.1 _) _ hd.view
    rw [hpg]
    apply harmless_app
    · simp only [drawStart, adds_lines, Vis.adds]
      intro t ht
      cases ht
    · apply harmless_sum
      intro P hP
      obtain ⟨k, hk, rfl⟩ := List.mem_map.1 hP
      obtain ⟨d, hdm, hdc⟩ := forall₂_right hcs k hk
      intro t ht hraw
      obtain ⟨ok, P, L⟩ := k
      obtain ⟨hk, g, q, hg, hs⟩ := dim_raw E _ d (hJ r hr) ok P L hdc t ht hraw
      exact ⟨g q, formatOf_plain E hE _ (hp d hdm hk) g hg q, hs⟩
  | text str ms l =>
    unfold content at h
    simp only [visitDrawable, bind, Except.bind] at h
    obtain ⟨ds, extra, e1, e2, e3⟩ := visitText_out (α := Ext ℝ) str ms l
    rw [e3] at h
    unfold textOut at h
    by_cases hds : ds ≠ []
    · rw [if_pos hds] at h; cases h; intro t ht; cases ht
    rw [if_neg hds] at h
    cases hl : textLocOf (look ms c!"@") with
    | error a => rw [hl] at h; cases h
    | ok p =>
      rw [hl] at h
      cases h
      exact textRows_harmless _ p

/-- every text of a page made from a script whose diameters have plain formats is harmless -/
theorem page_harmless (E : Env (Ext ℝ)) (hE : FormatsPlain E) (hJ : E.NotAView) (script : Str) (doc : Doc (Ext ℝ)) (hp : parse script = .ok (some doc))
    (hd : PlainDias doc) (stl : Models (Ext ℝ)) (pg) (hpg : pg ∈ doc.pages) (g : GenRes (Ext ℝ)) (hg : onePage E stl pg = .ok g) (o) (ho : g.pages = [o]) :
    ∀ t ∈ o.text, Harmless t := by
  obtain ⟨cs, t, f, -, e'⟩ := C46_title E stl pg g hg
  rw [ho] at e'
  injection e' with e' _
  rw [e']
  apply harmless_app
  · apply harmless_sum
    intro P hP
    obtain ⟨c, hc, rfl⟩ := List.mem_map.1 hP
    obtain ⟨y, hy, hyc⟩ := forall₂_right f c hc
    exact content_harmless E hE hJ stl y (parse_isFin script doc hp pg hpg y hy) (hd pg hpg y hy) c hyc
  · intro t ht
    simp only [List.mem_cons, List.not_mem_nil, or_false] at ht
    subst ht
    intro h; cases h

theorem made_pages (E : Env (Ext ℝ)) (w : World) (src script : Str) (r : RunRes) (h : scriptToPS E w src script = .ok r) (hok : r.ok = true) :
    ∃ doc fs outs, MadeOf E w script doc fs outs ∧ r.out = renderPages E src outs := by
  obtain ⟨doc, fs, outs, hp, -, hl, hf, ho⟩ := (C48_all_or_nothing E w src script r h).2.1 hok
  exact ⟨doc, fs, outs, ⟨hp, hl, hf⟩, ho⟩

theorem made_harmless (E : Env (Ext ℝ)) (hE : FormatsPlain E) (hJ : E.NotAView) (w : World) (script : Str) (doc : Doc (Ext ℝ)) (fs outs)
    (h : MadeOf E w script doc fs outs) (hd : PlainDias doc) : ∀ P ∈ outs, ∀ t ∈ P.text, Harmless t := by
  intro o ho
  obtain ⟨pg, hpg, g, hg, -, e⟩ := forall₂_right h.2.2 o ho
  exact page_harmless E hE hJ script doc h.1 hd _ pg hpg g hg o e

theorem zip_made (lp : Str) (w : World) (ms : List ModelN) (fs : List (STLFile (Ext ℝ))) (hf : List.Forall₂ (Loads lp w) ms fs) :
    Models.Made (List.zipWith (fun m f => (m.name, some f)) ms fs) := by
  induction hf with
  | nil => intro e he; simp at he
  | @cons m f ms fs hmf _ ih =>
    intro e he
    simp only [List.zipWith_cons_cons, List.mem_cons] at he
    rcases he with rfl | he
    · obtain ⟨ps, x, -, -, hx⟩ := hmf
      exact ⟨f, rfl, make_made x f hx⟩
    · exact ih e he

/-- C37 for a run: what a successful conversion writes scans to exactly the tokens of its pages, if the header fields have no line breaks and
the formats of its diameters no special characters. -/
theorem C37_run (E : Env (Ext ℝ)) (hE : FormatsPlain E) (hJ : E.NotAView) (w : World) (src script : Str) (r : RunRes)
    (h : scriptToPS E w src script = .ok r) (hok : r.ok = true) (hd : ∀ doc : Doc (Ext ℝ), parse script = .ok (some doc) → PlainDias doc)
    (h1 : OneLine E.name) (h2 : OneLine src) (h3 : OneLine E.now) :
    ∃ doc fs outs, MadeOf E w script doc fs outs ∧ scan r.out = some (docToks E outs) := by
  obtain ⟨doc, fs, outs, hm, ho⟩ := made_pages E w src script r h hok
  exact ⟨doc, fs, outs, hm, by rw [ho]; exact C37_tokens E src outs (made_harmless E hE hJ w script doc fs outs hm (hd doc hm.1)) h1 h2 h3⟩

/-- C36 for a run: what a successful conversion writes is the header and one block per page of the script, in the script's order; block
`i` announces page `i` of `n` and puts out a page once, at its end. -/
theorem C36_run (E : Env (Ext ℝ)) (hE : FormatsPlain E) (hJ : E.NotAView) (w : World) (src script : Str) (r : RunRes)
    (h : scriptToPS E w src script = .ok r) (hok : r.ok = true) (hd : ∀ doc : Doc (Ext ℝ), parse script = .ok (some doc) → PlainDias doc) :
    ∃ doc fs outs, ∃ blocks : List Str, MadeOf E w script doc fs outs ∧
      r.out = documentHeader E src ++ blocks.flatten ∧ blocks.length = doc.pages.length ∧ outs.length = doc.pages.length ∧
      ∀ i o b, outs[i]? = some o → blocks[i]? = some b → PageBlock (i + 1) doc.pages.length (pageToks E doc.pages.length (i + 1) o) b := by
  obtain ⟨doc, fs, outs, hm, ho⟩ := made_pages E w src script r h hok
  obtain ⟨bs, e1, e2, e3⟩ := C36_blocks E src outs (made_harmless E hE hJ w script doc fs outs hm (hd doc hm.1))
  have hl := hm.2.2.length_eq
  exact ⟨doc, fs, outs, bs, hm, by rw [ho, e1], by omega, hl.symm, by rw [hl]; exact e3⟩

/-- C35 for a run: what a successful conversion writes paints its pages, if the header fields have no line breaks, the formats of its
diameters no special characters, and every drawing is tame (as in `C54_finite_partial`). -/
theorem C35_run (F : Fonts) (E : Env (Ext ℝ)) (hS : SortOK E.sorter) (hE : FormatsPlain E) (hJ : E.NotAView) (w : World) (src script : Str)
    (r : RunRes) (h : scriptToPS E w src script = .ok r) (hok : r.ok = true)
    (hd : ∀ doc : Doc (Ext ℝ), parse script = .ok (some doc) → PlainDias doc)
    (ht : ∀ (doc : Doc (Ext ℝ)) fs, parse script = .ok (some doc) → List.Forall₂ (Loads E.loadPath w) doc.models fs →
      ∀ pg ∈ doc.pages, ∀ y ∈ pg.draws, y.Tame E (List.zipWith (fun m f => (m.name, some f)) doc.models fs))
    (h1 : OneLine E.name) (h2 : OneLine src) (h3 : OneLine E.now) :
    ∃ doc fs outs ms, MadeOf E w script doc fs outs ∧ Paints F r.out ms ∧ PaintsPages F E doc.pages.length 1 outs ms := by
  obtain ⟨doc, fs, outs, hm, ho⟩ := made_pages E w src script r h hok
  have hfin : ∀ o ∈ outs, o.IsFin := by
    intro o ho
    obtain ⟨pg, hpg, g, hg, -, e⟩ := forall₂_right hm.2.2 o ho
    exact page_fin E hS hJ _ (zip_made _ w _ _ hm.2.1) pg (parse_isFin script doc hm.1 pg hpg) (ht doc fs hm.1 hm.2.1 pg hpg) g hg o e
  obtain ⟨ms, h4, h5⟩ := C35_paints F E src outs hfin (made_harmless E hE hJ w script doc fs outs hm (hd doc hm.1)) h1 h2 h3
  exact ⟨doc, fs, outs, ms, hm, by rw [ho]; exact h4, by rw [hm.2.2.length_eq]; exact h5⟩

/-! ## The premises occur -/

theorem signed_mem (s : Str) : ∀ c ∈ s, c = '-' ∨ c = '+' ∨ c ∈ (signed s).2 := by
  intro c hc
  unfold signed
  split
  · rcases List.mem_cons.1 hc with rfl | h
    · exact .inl rfl
    · exact .inr (.inr h)
  · rcases List.mem_cons.1 hc with rfl | h
    · exact .inr (.inl rfl)
    · exact .inr (.inr h)
  · exact .inr (.inr hc)

theorem mem_takeWhile {p : Char → Bool} {s : Str} {c : Char} (h : c ∈ s.takeWhile p) : p c = true := by
  induction s with
  | nil => cases h
  | cons d s ih =>
    rw [List.takeWhile_cons] at h
    split at h
    · rcases List.mem_cons.1 h with rfl | h
      · assumption
      · exact ih h
    · cases h

theorem split_mem (p : Char → Bool) (s : Str) {c : Char} (h : c ∈ s) : p c = true ∨ c ∈ s.dropWhile p := by
  rw [← List.takeWhile_append_dropWhile (p := p) (l := s)] at h
  rcases List.mem_append.1 h with h | h
  · exact .inl (mem_takeWhile h)
  · exact .inr h

/-- a number has no special characters -/
theorem num_plain {s : Str} {q : ℚ} (h : readNum s = some q) : Plain s := by
  have hexp : ∀ t e, readExp t = some e → ∀ c ∈ t, isDec c = true ∨ c = 'e' ∨ c = 'E' ∨ c = '-' ∨ c = '+' := by
    intro t e ht c hc
    cases t with
    | nil => cases hc
    | cons d t =>
      simp only [readExp] at ht
      split at ht
      · rename_i hd
        split at ht
        · rename_i h2
          rcases List.mem_cons.1 hc with rfl | hc
          · tauto
          rcases signed_mem t c hc with h | h | h
          · tauto
          · tauto
          · exact .inl (List.all_eq_true.1 h2.2 c h)
        · cases ht
      · cases ht
  have hall : ∀ c ∈ s, isDec c = true ∨ c = 'e' ∨ c = 'E' ∨ c = '-' ∨ c = '+' ∨ c = '.' := by
    intro c hc
    simp only [readNum] at h
    split at h
    · cases h
    obtain ⟨e, he, -⟩ := Option.map_eq_some_iff.1 h
    rcases signed_mem s c hc with h | h | h
    · tauto
    · tauto
    revert he h
    generalize (signed s).2 = u
    intro he h
    unfold readDigits at he
    rcases split_mem isDec u h with h | h
    · exact .inl h
    split at he
    · rename_i t ht
      rw [ht] at h
      rcases List.mem_cons.1 h with rfl | h
      · tauto
      rcases split_mem isDec t h with h | h
      · exact .inl h
      · rcases hexp _ _ he c h with h | h | h | h | h <;> tauto
    · rcases hexp _ _ he c h with h | h | h | h | h <;> tauto
  intro c hc
  rcases hall c hc with h | rfl | rfl | rfl | rfl | rfl
  · simp only [isDec, Bool.and_eq_true, decide_eq_true_eq] at h
    refine ⟨?_, ?_, ?_, by omega⟩ <;> (rintro rfl; revert h; decide)
  all_goals decide

theorem g6_plain {K : Type} [Field K] [LinearOrder K] [IsStrictOrderedRing K] [FloorRing K] [Trans K] (a : Ext K) : Plain (FP.g6 a) := by
  cases a with
  | fin k => obtain ⟨q, h, -⟩ := show6_reads k; exact num_plain h
  | pinf => exact (by unfold Plain; decide : Plain c!"inf")
  | ninf => exact (by unfold Plain; decide : Plain c!"-inf")
  | nan => exact (by unfold Plain; decide : Plain c!"nan")

theorem rEnv_plain : FormatsPlain rEnv := by
  intro f g hg _ q
  simp only [rEnv] at hg
  split at hg
  · cases hg; exact g6_plain q
  · cases hg

/-- two pages, one of which has a text that would be trouble unescaped -/
def exScript : Str := c!"page{text[\"a) showpage (\"]{}}page{}"

/-- whether a script is a document without drawings -/
def textOnly (o : Except Abort (Option (Doc (Ext ℝ)))) : Bool :=
  match o with
  | .ok (some doc) => doc.pages.all (fun pg => pg.draws.all (fun y => match y with | .draw _ _ _ _ => false | .text _ _ _ => true))
  | _ => false

/-- a run that meets the premises of the three theorems about runs -/
example : SortOK rEnv.sorter ∧ FormatsPlain rEnv ∧ rEnv.NotAView ∧ OneLine rEnv.name ∧ OneLine c!"s" ∧ OneLine rEnv.now ∧
    (scriptToPS rEnv exWorld c!"s" exScript).map (fun r => r.ok) = .ok true ∧
    (∀ doc : Doc (Ext ℝ), parse exScript = .ok (some doc) → PlainDias doc) ∧
    (∀ (doc : Doc (Ext ℝ)) fs, parse exScript = .ok (some doc) → List.Forall₂ (Loads rEnv.loadPath exWorld) doc.models fs →
      ∀ pg ∈ doc.pages, ∀ y ∈ pg.draws, y.Tame rEnv (List.zipWith (fun m f => (m.name, some f)) doc.models fs)) := by
  have ht : textOnly (parse exScript) = true := by decide +kernel
  have key : ∀ doc : Doc (Ext ℝ), parse exScript = .ok (some doc) → ∀ pg ∈ doc.pages, ∀ y ∈ pg.draws, ∃ s ms l, y = .text s ms l := by
    intro doc h pg hpg y hy
    rw [h] at ht
    have := List.all_eq_true.1 (List.all_eq_true.1 ht pg hpg) y hy
    cases y with
    | draw _ _ _ _ => cases this
    | text s ms l => exact ⟨s, ms, l, rfl⟩
  refine ⟨insSorter_ok, rEnv_plain, rEnv_notAView, by unfold OneLine; decide, by unfold OneLine; decide, by unfold OneLine; decide, ?_, ?_, ?_⟩
  · decide +kernel
  · intro doc h pg hpg y hy
    obtain ⟨s, ms, l, rfl⟩ := key doc h pg hpg y hy
    trivial
  · intro doc fs h _ pg hpg y hy
    obtain ⟨s, ms, l, rfl⟩ := key doc h pg hpg y hy
    trivial

end PS
end S2P
