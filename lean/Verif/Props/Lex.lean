import Verif.Lemmas.Layout
import Verif.Lemmas.Ext

set_option linter.unusedSectionVars false

/-! # C01, C02, C05: words, string literals, layout -/

namespace S2P
variable {α : Type} [FP α]

/-! ## C02 -/

/-- C02: the token stream is the one given by longest match and first rule, and there is exactly one such. -/
theorem C02_scan (s : Str) (its : List (Item α)) : Scans s 1 its ↔ its = lex s :=
  ⟨fun h => scans_unique s 1 its h, fun h => h ▸ scans_lexFrom _ s 1 (Nat.le_refl _)⟩

/-- C02: a word that does not go on is read whole: as the keyword if it is one, otherwise as that identifier. -/
theorem C02_word (w rest : Str) (hw : IsWord w) (hr : ∀ c ∈ rest.head?, ¬ (Letter c ∨ Digit c)) (l : Nat) :
    (∃ k ∈ keywords (α := α), w = k.1 ∧ lexFrom (w ++ rest) l = .tok k.2 l :: lexFrom rest l) ∨
    ((∀ k ∈ keywords (α := α), w ≠ k.1) ∧ lexFrom (w ++ rest) l = (.tok (.id w) l : Item α) :: lexFrom rest l) := by
  by_cases h : ∃ k ∈ keywords (α := α), w = k.1
  · obtain ⟨k, hk, rfl⟩ := h
    exact Or.inl ⟨k, hk, rfl, lex_key k hk rest hr l⟩
  · have h' : ∀ k ∈ keywords (α := α), w ≠ k.1 := fun k hk he => h ⟨k, hk, he⟩
    exact Or.inr ⟨h', lex_word w hw h' rest hr l⟩

/-- C02: an identifier token is a word and never a reserved word. -/
theorem C02_identifier (s : Str) (w : Str) (l : Nat) (h : (.tok (.id w) l : Item α) ∈ lex s) :
    IsWord w ∧ ∀ k ∈ keywords (α := α), w ≠ k.1 := by
  have hs := (C02_scan (α := α) s (lex s)).2 rfl
  generalize hits : (lex s : List (Item α)) = its at h hs
  clear hits
  generalize (1 : Nat) = line at hs
  induction hs with
  | nil => cases h
  | skip m rest line r its hb hmk _ ih => exact ih h
  | emit m rest line r it its hb hmk _ ih =>
    rcases List.mem_cons.1 h with rfl | h
    · obtain ⟨_, _, _, i, hi, hacc, hf⟩ := hb
      have hr := List.mem_of_getElem? hi
      rw [lexRules_eq, List.mem_append, List.mem_append] at hr
      rcases hr with (hr | hr) | hr
      · obtain ⟨c, hc, rfl⟩ := List.mem_map.1 hr
        have : some (Item.tok (Tok.id w) l) = some (Item.tok (Tok.p c) (line + m.count '\n')) := hmk
        simp at this
      · obtain ⟨k, hk, rfl⟩ := List.mem_map.1 hr
        have : some (Item.tok (Tok.id w) l) = some (Item.tok k.2 (line + m.count '\n')) := hmk
        simp only [Option.some.injEq, Item.tok.injEq] at this
        exfalso
        simp only [keywords, List.mem_cons, List.not_mem_nil, or_false] at hk
        rcases hk with rfl | rfl | rfl | rfl | rfl | rfl | rfl | rfl <;> simp at this
      · unfold tailRules at hr
        simp only [List.mem_cons, List.not_mem_nil, or_false] at hr
        rcases hr with rfl | rfl | rfl | rfl | rfl | rfl | rfl
        · have : some (Item.tok (Tok.id w) l) = some (Item.tok (Tok.id m) (line + m.count '\n')) := hmk
          simp only [Option.some.injEq, Item.tok.injEq, Tok.id.injEq] at this
          obtain ⟨rfl, _⟩ := this
          refine ⟨hacc, ?_⟩
          intro k hk he
          subst he
          obtain ⟨j, hj, hjacc, hjf⟩ := first_key k hk
          rcases Nat.lt_trichotomy i j with hlt | heq | hlt
          · exact hjf i _ hlt hi hacc
          · subst heq
            rw [hi] at hj
            injection hj with hj
            have : Rule.accepts (α := α) ⟨IsWord, fun m l o => o = some (.tok (.id m) l)⟩ ['x'] =
              Rule.accepts (α := α) ⟨(· = k.1), fun _ l o => o = some (.tok k.2 l)⟩ ['x'] := by rw [hj]
            have hx : ['x'] = k.1 := this.mp (⟨'x', [], rfl, by unfold Letter; decide, by simp⟩ : IsWord ['x'])
            simp only [keywords, List.mem_cons, List.not_mem_nil, or_false] at hk
            rcases hk with rfl | rfl | rfl | rfl | rfl | rfl | rfl | rfl <;> simp at hx
          · exact hf j _ hlt hj hjacc
        · obtain ⟨q, _, h⟩ := (show NumItem m _ _ from hmk)
          exfalso
          revert h
          cases (FP.ofDec32 q : Option α) <;> simp
        · obtain ⟨q, _, h⟩ := (show NumItem m _ _ from hmk)
          exfalso
          revert h
          cases (FP.ofDec32 q : Option α) <;> simp
        · have h' : LitItem m _ _ := hmk
          exfalso
          unfold LitItem at h'
          split_ifs at h'
          · simp at h'
          · obtain ⟨b, v, _, _, h'⟩ := h'; simp at h'
        · exact absurd (show some _ = none from hmk) (by simp)
        · exact absurd (show some _ = none from hmk) (by simp)
        · exact absurd (show some _ = some Item.bad from hmk) (by simp)
    · exact ih h

/-- non-vacuity and a taste: keywords, longest match, comments, a character that is no token, lines -/
example : (lex c!"draw drawx 1.5.5 // c\n#;" : List (Item (Ext ℚ))) =
    [.tok .kDraw 1, .tok (.id c!"drawx") 1, .tok (.num (.fin (3/2))) 1, .tok (.num (.fin (1/2))) 1, .bad, .tok (.p ';') 2] := by
  decide +kernel

/-! ## C01 -/

theorem quoted_escape (s : Str) : Quoted (s.flatMap escChar) s := by
  induction s with
  | nil => exact .nil
  | cons c s ih =>
    rw [List.flatMap_cons]
    unfold escChar
    split_ifs with h1 h2 h3
    · subst h1; exact .esc _ (by simp) _ _ ih
    · subst h2; exact .esc _ (by simp) _ _ ih
    · subst h3; exact .newline _ _ ih
    · exact .plain c ⟨h1, h2, h3⟩ _ _ ih

theorem escape_noNul (s : Str) (h : '\x00' ∉ s) : '\x00' ∉ s.flatMap escChar := by
  intro hm
  obtain ⟨c, hc, hx⟩ := List.mem_flatMap.1 hm
  unfold escChar at hx
  split_ifs at hx <;> simp at hx
  exact h (hx ▸ hc)

/-- C01: a text without NUL, written as a string literal, is one string token whose value is that text; what follows is read as if
the literal were not there. -/
theorem C01_literal (s : Str) (hs : '\x00' ∉ s) (rest : Str) (l : Nat) :
    (lexFrom (quote s ++ rest) l : List (Item α)) = .tok (.str s) l :: lexFrom rest l :=
  lex_lit _ s (quoted_escape s) (escape_noNul s hs) rest l

theorem isLiteral_quote (s : Str) : IsLiteral (quote s) := ⟨_, s, quoted_escape s, rfl⟩

theorem lexemeItems_quote (s : Str) (hs : '\x00' ∉ s) : (lexemeItems (quote s) : List (Item α)) = [.tok (.str s) 0] := by
  have := C01_literal (α := α) s hs [] 0
  rw [List.append_nil] at this
  unfold lexemeItems
  rw [this]
  simp [lexFrom, Item.noLine]

theorem parseStrs_append (ss : List Str) (rest : List (Item α)) (hr : ∀ s l r, rest ≠ .tok (.str s) l :: r) : ∀ acc,
    parseStrs acc (ss.map (fun s => Item.tok (.str s) 0) ++ rest) = (acc ++ ss.flatten, rest) := by
  induction ss with
  | nil =>
    intro acc
    rcases rest with _ | ⟨⟨t, l⟩ | _ | _, rest⟩
    · simp [parseStrs]
    · cases t with
      | str s => exact absurd rfl (hr _ _ _)
      | _ => simp [parseStrs]
    · simp [parseStrs]
    · simp [parseStrs]
  | cons s ss ih => intro acc; simp [parseStrs, ih]

theorem lexemeItems_punct (c : Char) (hc : c ∈ puncts) : (lexemeItems [c] : List (Item α)) = [.tok (.p c) 0] := by
  unfold lexemeItems
  rw [lex_punct c hc]
  simp [lexFrom, Item.noLine]

theorem lexemeItems_key (k : Str × Tok α) (hk : k ∈ keywords) : (lexemeItems k.1 : List (Item α)) = [.tok k.2 0] := by
  have := lex_key k hk [] (by simp) 0
  rw [List.append_nil] at this
  unfold lexemeItems
  rw [this]
  simp [lexFrom, Item.noLine]

theorem lexemeItems_word (w : Str) (hw : IsWord w) (hk : ∀ k ∈ keywords (α := α), w ≠ k.1) :
    (lexemeItems w : List (Item α)) = [.tok (.id w) 0] := by
  have := lex_word (α := α) w hw hk [] (by simp) 0
  rw [List.append_nil] at this
  unfold lexemeItems
  rw [this]
  simp [lexFrom, Item.noLine]

theorem flatMap_quotes (bs : List Str) (hb : ∀ b ∈ bs, '\x00' ∉ b) :
    (bs.map quote).flatMap (lexemeItems (α := α)) = bs.map (fun s => Item.tok (.str s) 0) := by
  induction bs with
  | nil => rfl
  | cons b bs ih =>
    simp only [List.map_cons, List.flatMap_cons]
    rw [lexemeItems_quote b (hb b (by simp)), ih (fun x hx => hb x (by simp [hx]))]
    rfl

/-- C01: adjacent literals, in any layout, denote the concatenation.  Here as a page property `k` and as a text block. -/
theorem C01_adjacent (k a : Str) (bs : List Str) (hk : IsWord k) (hkk : ∀ x ∈ keywords (α := α), k ≠ x.1)
    (ha : '\x00' ∉ a) (hb : ∀ b ∈ bs, '\x00' ∉ b) (s : Str)
    (hs : Layout ([c!"page", c!"{", k, c!"="] ++ (a :: bs).map quote ++ [c!";", c!"text", c!"["] ++ (a :: bs).map quote ++
      [c!"]", c!"{", c!"}", c!"}"]) s) :
    (parse s).map (Option.map (Doc.noLine (α := α))) =
      .ok (some ⟨[], [⟨[⟨k, .str (a :: bs).flatten, 0⟩], [.text (a :: bs).flatten [] 0], 0⟩]⟩) := by
  have h1 := layout_lex (α := α) _ s hs 1
  have hp := lexemeItems_key (α := α) (c!"page", .kPage) (by simp [keywords])
  have ht := lexemeItems_key (α := α) (c!"text", .kText) (by simp [keywords])
  have hq := flatMap_quotes (α := α) (a :: bs) (by simpa using ⟨ha, hb⟩)
  simp only [List.flatMap_append, List.flatMap_cons, List.flatMap_nil, hq, hp, ht, lexemeItems_word k hk hkk,
    lexemeItems_punct '{' (by decide), lexemeItems_punct '=' (by decide), lexemeItems_punct ';' (by decide),
    lexemeItems_punct '[' (by decide), lexemeItems_punct ']' (by decide), lexemeItems_punct '}' (by decide)] at h1
  have h2 := parseItems_noLine (α := α) (lexFrom s 1)
  rw [h1] at h2
  have h3 : (parse s).map (Option.map (Doc.noLine (α := α))) = mapOut Doc.noLine (parseItems (lexFrom s 1)) := by
    unfold parse lex
    rcases (parseItems (lexFrom s 1) : Except Abort (Option (Doc α))) with e | _ | d <;> rfl
  rw [h3, ← h2]
  have hc : ∀ (rest : List (Item α)) (c : Char), parseStrs a (bs.map (fun s => Item.tok (.str s) 0) ++ .tok (.p c) 0 :: rest) =
      (a ++ bs.flatten, .tok (.p c) 0 :: rest) := fun rest c => parseStrs_append bs _ (by simp) a
  simp [parseItems, parseInput, parsePage, parsePageParts, parseArg, parseVal, parseText, parseArgs, startsArg, expect, andThen,
    done, strLit, lookAhead, hc]

/-- non-vacuity: such layouts exist, and the escapes come out -/
example : ((parse c!"page { k = \"a\\\"\" \"\\n\"\"b\"; text [\"c\" \"d\"] {} }").map (Option.map (Doc.noLine (α := Ext ℚ)))) =
    .ok (some ⟨[], [⟨[⟨c!"k", .str c!"a\"\nb", 0⟩], [.text c!"cd" [] 0], 0⟩]⟩) := by decide +kernel

/-! ## C05 -/

/-- C05: the outcome of parsing depends on the lexemes only, up to line numbers. -/
theorem C05_layout (ws : List Str) (s s' : Str) (h : Layout ws s) (h' : Layout ws s') :
    (parse s).map (Option.map (Doc.noLine (α := α))) = (parse s').map (Option.map Doc.noLine) := by
  have e : ∀ s, (parse s).map (Option.map (Doc.noLine (α := α))) = parseItems ((lexFrom s 1).map Item.noLine) := by
    intro s
    rw [parseItems_noLine]
    unfold parse lex
    rcases (parseItems (lexFrom s 1) : Except Abort (Option (Doc α))) with e | _ | d <;> rfl
  rw [e, e, layout_lex ws s h, layout_lex ws s' h']

/-- C05: every script is a layout of some lexemes, so `C05_layout` covers every script. -/
theorem C05_every_script (s : Str) : ∃ ws, Layout ws s := by
  have := scans_lexFrom (α := Ext ℚ) _ s 1 (Nat.le_refl _)
  exact scans_layout s 1 _ this

/-- the text splits into `a` and `b` between two tokens (everything in `a` is tokens, blanks and comments) -/
inductive Cut : Str → Str → Prop
  | here (b : Str) : Cut [] b
  | after (p w a b : Str) : Blanks p → IsToken w → NoGlue w (a ++ b) → Cut a b → Cut (p ++ w ++ a) b

/-- for a token, running into the next text depends on its first character only -/
theorem noGlue_head (w x y : Str) (hw : IsToken w) (h : NoGlue w x) (hxy : x.head? = y.head?) : NoGlue w y := by
  have ext : ∀ c, x.head? = some c → IsToken (w ++ [c]) → False := by
    intro c hc ht
    cases x with
    | nil => simp at hc
    | cons d x =>
      simp at hc; subst hc
      have := h (w ++ [d]) ⟨x, by simp⟩ (Or.inl ht)
      simp at this
  intro m hm hk
  have hlong : m.length = 1 ∨ Long m := by
    rcases hk with h | h
    · exact long_token m h
    · exact Or.inr (Or.inr (Or.inr (Or.inr (Or.inr h))))
  have hne : w ≠ [] := lexeme_ne w (Or.inl hw)
  rcases hlong with hl | hl
  · rw [hl]; exact List.length_pos_iff.2 hne
  · rcases hw with ⟨c, hc, rfl⟩ | hw | hw | hw | hw
    · cases m with
      | nil => simp
      | cons d m =>
        exfalso
        obtain ⟨u, hu⟩ := hm
        simp only [List.cons_append, List.nil_append, List.cons.injEq] at hu
        obtain ⟨rfl, _⟩ := hu
        rcases long_other _ _ hl with h | h | h | h
        · exact h.ne_punct hc
        · exact h.ne_punct hc
        · subst h; revert hc; decide
        · subst h; revert hc; decide
    · refine word_extent w y m hw (fun c hc hbad => ?_) hm hl
      rw [← hxy] at hc
      refine ext c hc (Or.inr (Or.inl ?_))
      obtain ⟨c0, t, rfl, h1, h2⟩ := hw
      refine ⟨c0, t ++ [c], rfl, h1, ?_⟩
      intro z hz
      rcases List.mem_append.1 hz with hz | hz
      · exact h2 z hz
      · simp at hz; rw [hz]; exact hbad
    · have hA := hw
      refine num_extent w y m (Or.inl hw) (fun c hc => ⟨fun hd => ?_, fun he => ?_⟩) hm hl
      · rw [← hxy] at hc
        refine ext c hc (Or.inr (Or.inr (Or.inl ?_)))
        obtain ⟨sg, ip, h1, h2, h3, rfl | ⟨fp, h4, rfl⟩⟩ := hw
        · refine ⟨sg, ip ++ [c], h1, ?_, by simp, Or.inl (by simp)⟩
          intro z hz
          rcases List.mem_append.1 hz with hz | hz
          · exact h2 z hz
          · simp at hz; rw [hz]; exact hd
        · refine ⟨sg, ip, h1, h2, h3, Or.inr ⟨fp ++ [c], ?_, by simp⟩⟩
          intro z hz
          rcases List.mem_append.1 hz with hz | hz
          · exact h4 z hz
          · simp at hz; rw [hz]; exact hd
      · rw [← hxy] at hc
        subst he
        by_contra hno
        refine ext '.' hc (Or.inr (Or.inr (Or.inl ?_)))
        obtain ⟨sg, ip, h1, h2, h3, rfl | ⟨fp, h4, rfl⟩⟩ := hw
        · exact ⟨sg, ip, h1, h2, h3, Or.inr ⟨[], by simp [Digits], rfl⟩⟩
        · exact absurd (by simp) hno
    · refine num_extent w y m (Or.inr hw) (fun c hc => ⟨fun hd => ?_, fun he => ?_⟩) hm hl
      · rw [← hxy] at hc
        refine ext c hc (Or.inr (Or.inr (Or.inr (Or.inl ?_))))
        obtain ⟨sg, fp, h1, h2, h3, rfl⟩ := hw
        refine ⟨sg, fp ++ [c], h1, ?_, by simp, by simp⟩
        intro z hz
        rcases List.mem_append.1 hz with hz | hz
        · exact h2 z hz
        · simp at hz; rw [hz]; exact hd
      · obtain ⟨sg, fp, h1, h2, h3, rfl⟩ := hw; simp
    · exact lit_extent w y m hw hm hl

theorem cut_layout (a b : Str) (h : Cut a b) : ∀ ws, Layout ws b → ∃ ws', Layout ws' (a ++ b) ∧
    ∀ q, Blanks q → Layout ws' (a ++ q ++ b) := by
  induction h with
  | here b => intro ws hb; exact ⟨ws, hb, fun q hq => layout_blanks ws b q hq hb⟩
  | after p w a b hp hw hg _ ih =>
    intro ws hb
    obtain ⟨ws', h1, h2⟩ := ih ws hb
    refine ⟨w :: ws', ?_, ?_⟩
    · have := Layout.step p w (a ++ b) ws' hp (Or.inl hw) hg h1
      simpa using this
    · intro q hq
      have hg' : NoGlue w (a ++ q ++ b) := by
        cases a with
        | nil =>
          by_cases hq0 : q = []
          · subst hq0; simpa using hg
          · exact noGlue_token w _ hw (blanks_head q hq hq0 b)
        | cons c a => exact noGlue_head w _ _ hw hg (by simp)
      have := Layout.step p w (a ++ q ++ b) ws' hp (Or.inl hw) hg' (h2 q hq)
      simpa using this

/-- C05: inserting blanks and comments between tokens (or, read backwards, removing them) changes neither acceptance nor the
document, up to line numbers.  (`b` is the rest of the script, possibly with lexical errors.) -/
theorem C05_insert (a b q : Str) (h : Cut a b) (hq : Blanks q) :
    (parse (a ++ q ++ b)).map (Option.map (Doc.noLine (α := α))) = (parse (a ++ b)).map (Option.map Doc.noLine) := by
  obtain ⟨ws, hb⟩ := C05_every_script b
  obtain ⟨ws', h1, h2⟩ := cut_layout a b h ws hb
  exact C05_layout ws' _ _ (h2 q hq) h1

/-- Why the part before the insertion must be free of lexical errors: a comment inserted after a lone slash joins it. -/
example : (parse c!"/ \n").map (Option.map (Doc.noLine (α := Ext ℚ))) = .ok none ∧
    (parse c!"/// \n \n").map (Option.map (Doc.noLine (α := Ext ℚ))) = .ok (some ⟨[], []⟩) := by decide +kernel

/-- non-vacuity: a cut inside a script, and both texts give the same document -/
example : Cut c!"page{" c!"}" := by
  refine .after [] c!"page" c!"{" c!"}" .nil (Or.inr (Or.inl ⟨'p', _, rfl, by unfold Letter; decide, by unfold Letter Digit; decide⟩)) ?_ ?_
  · exact noGlue_token _ _ (Or.inr (Or.inl ⟨'p', _, rfl, by unfold Letter; decide, by unfold Letter Digit; decide⟩))
      (by intro c hc; simp at hc; subst hc; unfold Letter Digit; decide)
  · refine .after [] c!"{" [] c!"}" .nil (Or.inl ⟨'{', by decide, rfl⟩) ?_ (.here _)
    exact noGlue_token _ _ (Or.inl ⟨'{', by decide, rfl⟩) (by intro c hc; simp at hc; subst hc; unfold Letter Digit; decide)

example : (parse c!"page{}").map (Option.map (Doc.noLine (α := Ext ℚ))) = .ok (some ⟨[], [⟨[], [], 0⟩]⟩) ∧
    (parse c!"page{ // hi\n\t}").map (Option.map (Doc.noLine (α := Ext ℚ))) = .ok (some ⟨[], [⟨[], [], 0⟩]⟩) := by decide +kernel

end S2P
