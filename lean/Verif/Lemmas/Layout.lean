import Verif.Spec.Layout
import Verif.Lemmas.LexOne
import Verif.Lemmas.NoLine

set_option linter.unusedSectionVars false
set_option linter.unusedVariables false

namespace S2P
variable {α : Type} [FP α]

theorem actItem_noLine (a : Act) (m : Str) (l l' : Nat) :
    (actItem a m l : Option (Item α)).map Item.noLine = (actItem a m l').map Item.noLine := by
  cases a <;> simp only [actItem, Option.map, Item.noLine]
  cases (FP.ofDec32 (numVal m) : Option α) <;> rfl

theorem lexFrom_noLine (k : Nat) : ∀ (s : Str) (l l' : Nat), s.length ≤ k →
    (lexFrom s l : List (Item α)).map Item.noLine = (lexFrom s l').map Item.noLine := by
  induction k with
  | zero =>
    intro s l l' h
    have : s = [] := List.length_eq_zero_iff.1 (by omega)
    subst this; simp [lexFrom]
  | succ k ih =>
    intro s l l' h
    cases s with
    | nil => simp [lexFrom]
    | cons c t =>
      obtain ⟨n, a, hp, _⟩ := pick_rules c t
      rw [lexFrom_cons c t l n a hp, lexFrom_cons c t l' n a hp]
      have h1 := actItem_noLine (α := α) a ((c :: t).take (n + 1)) (l + ((c :: t).take (n + 1)).count '\n') (l' + ((c :: t).take (n + 1)).count '\n')
      have h2 := ih ((c :: t).drop (n + 1)) (l + ((c :: t).take (n + 1)).count '\n') (l' + ((c :: t).take (n + 1)).count '\n')
        (by simp at h ⊢; omega)
      revert h1
      cases (actItem a ((c :: t).take (n + 1)) (l + ((c :: t).take (n + 1)).count '\n') : Option (Item α)) <;>
        cases (actItem a ((c :: t).take (n + 1)) (l' + ((c :: t).take (n + 1)).count '\n') : Option (Item α)) <;> intro h1
      · exact h2
      · simp at h1
      · simp at h1
      · simp only [Option.map, Option.some.injEq] at h1
        simp only [List.map_cons, h1, h2]

theorem token_long (m : Str) (h : Long m) : IsToken m ∨ IsComment m := by
  rcases h with h | h | h | h | h
  · exact Or.inl (Or.inr (Or.inl h))
  · exact Or.inl (Or.inr (Or.inr (Or.inl h)))
  · exact Or.inl (Or.inr (Or.inr (Or.inr (Or.inl h))))
  · exact Or.inl (Or.inr (Or.inr (Or.inr (Or.inr h))))
  · exact Or.inr h

theorem long_token (m : Str) (h : IsToken m) : m.length = 1 ∨ Long m := by
  rcases h with ⟨c, _, rfl⟩ | h | h | h | h
  · left; rfl
  · exact Or.inr (Or.inl h)
  · exact Or.inr (Or.inr (Or.inl h))
  · exact Or.inr (Or.inr (Or.inr (Or.inl h)))
  · exact Or.inr (Or.inr (Or.inr (Or.inr (Or.inl h))))

theorem lexeme_ne (w : Str) (h : IsLexeme w) : w ≠ [] := by
  rcases h with h | ⟨c, rfl, _⟩
  · rcases long_token w h with h | h
    · rintro rfl; simp at h
    · exact long_ne_nil w h
  · simp

theorem lexeme_accepted (w : Str) (h : IsLexeme w) : ∃ r ∈ lexRules (α := α), r.accepts w := by
  rw [lexRules_eq]
  rcases h with (⟨c, hc, rfl⟩ | h | h | h | h) | ⟨c, rfl, hc⟩
  · exact ⟨⟨(· = [c]), fun _ l o => o = some (.tok (.p c) l)⟩,
      List.mem_append_left _ (List.mem_append_left _ (List.mem_map.2 ⟨c, hc, rfl⟩)), rfl⟩
  · exact ⟨⟨IsWord, _⟩, List.mem_append_right _ (by unfold tailRules; exact List.mem_cons_self), h⟩
  · exact ⟨⟨IsNumA, NumItem⟩, List.mem_append_right _ (by unfold tailRules; exact List.mem_cons_of_mem _ List.mem_cons_self), h⟩
  · exact ⟨⟨IsNumB, NumItem⟩, List.mem_append_right _ (by unfold tailRules; exact List.mem_cons_of_mem _ (List.mem_cons_of_mem _ List.mem_cons_self)), h⟩
  · exact ⟨⟨IsLiteral, LitItem⟩, List.mem_append_right _ (by unfold tailRules; exact List.mem_cons_of_mem _ (List.mem_cons_of_mem _ (List.mem_cons_of_mem _ List.mem_cons_self))), h⟩
  · refine ⟨⟨fun m => ∃ c, m = [c] ∧ c ≠ '\n', fun _ _ o => o = some .bad⟩, List.mem_append_right _ (by unfold tailRules; simp), c, rfl, ?_⟩
    rintro rfl; exact hc (by simp [IsBlankStr])

/-- a lexeme followed by something it does not run into -/
theorem lexFrom_lexeme (w rest : Str) (hw : IsLexeme w) (hg : NoGlue w rest) (l : Nat) :
    (lexFrom (w ++ rest) l : List (Item α)) = lexFrom w l ++ lexFrom rest (l + w.count '\n') := by
  obtain ⟨r, hf⟩ := first_exists w (lexeme_accepted (α := α) w hw)
  have hne := lexeme_ne w hw
  have hb : Best (α := α) (w ++ rest) w r := best_of w rest r hne hf (fun m' hm' hl => hg m' hm' (token_long m' hl))
  have hb' : Best (α := α) (w ++ []) w r := best_of w [] r hne hf (fun m' hm' hl => by
    have := hm'.length_le; simpa using this)
  obtain ⟨o, ho⟩ : ∃ o, r.makes w (l + w.count '\n') o := by
    obtain ⟨i, hi, hacc, _⟩ := hf
    obtain ⟨p, _, hrel⟩ := (forall₂_get (rules_rel (α := α))).2 i r hi
    exact ⟨_, (hrel.2 w _ _ hacc).2 rfl⟩
  have h1 := lexFrom_best (w ++ rest) w r hb l o ho rest rfl
  have h2 := lexFrom_best (w ++ []) w r hb' l o ho [] rfl
  rw [List.append_nil] at h2
  have h3 : (lexFrom [] (l + w.count '\n') : List (Item α)) = [] := by simp [lexFrom]
  rw [h1, h2, h3, List.append_nil]

theorem lexFrom_blanks (p : Str) (hp : Blanks p) : ∀ (rest : Str) (l : Nat),
    (lexFrom (p ++ rest) l : List (Item α)) = lexFrom rest (l + p.count '\n') := by
  induction hp with
  | nil => intro rest l; simp
  | ws c h s _ ih =>
    intro rest l
    rw [List.cons_append, lex_ws c h, ih]
    simp only [List.count_cons, List.count_nil]
    congr 1; omega
  | comment t h s _ ih =>
    intro rest l
    have e : '/' :: '/' :: t ++ '\n' :: s ++ rest = '/' :: '/' :: t ++ ('\n' :: (s ++ rest)) := by simp
    rw [e, lex_comment t h ('\n' :: (s ++ rest)) (by simp), lex_ws '\n' (by simp [IsWs]), ih]
    have ht : t.count '\n' = 0 := List.count_eq_zero.2 h
    congr 1
    simp [ht]; omega

theorem lexFrom_end (s : Str) (hs : BlanksEnd s) (l : Nat) : (lexFrom s l : List (Item α)) = [] := by
  have h0 : ∀ l, (lexFrom [] l : List (Item α)) = [] := by intro l; simp [lexFrom]
  rcases hs with h | ⟨p, t, hp, ht, rfl⟩
  · have := lexFrom_blanks (α := α) s h [] l
    rw [List.append_nil] at this
    rw [this, h0]
  · rw [lexFrom_blanks p hp]
    have := lex_comment (α := α) t ht [] (by simp) (l + p.count '\n')
    rw [List.append_nil] at this
    rw [this, h0]

/-- the items of a lexeme, lines forgotten -/
def lexemeItems (w : Str) : List (Item α) := (lexFrom w 0).map Item.noLine

theorem layout_lex (ws : List Str) (s : Str) (h : Layout ws s) :
    ∀ l, (lexFrom s l : List (Item α)).map Item.noLine = ws.flatMap lexemeItems := by
  induction h with
  | done s hs => intro l; rw [lexFrom_end s hs]; simp
  | step p w rest ws hp hw hg _ ih =>
    intro l
    rw [List.append_assoc, lexFrom_blanks p hp, lexFrom_lexeme w rest hw hg, List.map_append, ih, List.flatMap_cons]
    congr 1
    exact lexFrom_noLine _ w _ _ (Nat.le_refl _)

theorem blanks_append (p q : Str) (hp : Blanks p) (hq : Blanks q) : Blanks (p ++ q) := by
  induction hp with
  | nil => exact hq
  | ws c h s _ ih => exact .ws c h _ ih
  | comment t h s _ ih =>
    have : '/' :: '/' :: t ++ '\n' :: s ++ q = '/' :: '/' :: t ++ '\n' :: (s ++ q) := by simp
    rw [this]; exact .comment t h _ ih

theorem layout_blanks (ws : List Str) (s p : Str) (hp : Blanks p) (h : Layout ws s) : Layout ws (p ++ s) := by
  cases h with
  | done _ hs =>
    refine .done _ ?_
    rcases hs with h | ⟨q, t, hq, ht, rfl⟩
    · exact Or.inl (blanks_append p s hp h)
    · exact Or.inr ⟨p ++ q, t, blanks_append p q hp hq, ht, by simp⟩
  | step q w rest ws hq hw hg hl =>
    have : p ++ (q ++ w ++ rest) = (p ++ q) ++ w ++ rest := by simp
    rw [this]
    exact .step _ w rest ws (blanks_append p q hp hq) hw hg hl

theorem blanks_nl (s : Str) (h : Blanks ('\n' :: s)) : Blanks s := by
  generalize e : '\n' :: s = w at h
  cases h with
  | nil => cases e
  | ws c hc t ht => injection e with _ e; rw [e]; exact ht
  | comment t ht u hu => simp at e

theorem layout_nl (ws : List Str) (s : Str) (h : Layout ws ('\n' :: s)) : Layout ws s := by
  generalize e : '\n' :: s = w at h
  cases h with
  | done _ hs =>
    subst e
    refine .done _ ?_
    rcases hs with h | ⟨p, t, hp, ht, e⟩
    · exact Or.inl (blanks_nl s h)
    · cases p with
      | nil => simp at e
      | cons c p =>
        simp only [List.cons_append, List.cons.injEq] at e
        obtain ⟨rfl, rfl⟩ := e
        exact Or.inr ⟨p, t, blanks_nl p hp, ht, rfl⟩
  | step p w rest ws hp hw hg hl =>
    cases p with
    | nil =>
      exfalso
      have hne := lexeme_ne w hw
      cases w with
      | nil => exact hne rfl
      | cons c w =>
        simp only [List.nil_append, List.cons_append, List.cons.injEq] at e
        obtain ⟨rfl, _⟩ := e
        rcases hw with hw | ⟨c, h1, h2⟩
        · rcases hw with ⟨c, hc, h1⟩ | hw
          · simp only [List.cons.injEq] at h1
            rw [← h1.1] at hc; revert hc; decide
          · exact ws_not_long '\n' (by simp [IsWs]) w (by
              rcases hw with h | h | h | h
              · exact Or.inl h
              · exact Or.inr (Or.inl h)
              · exact Or.inr (Or.inr (Or.inl h))
              · exact Or.inr (Or.inr (Or.inr (Or.inl h))))
        · simp only [List.cons.injEq] at h1
          rw [← h1.1] at h2; exact h2 (by simp [IsBlankStr])
    | cons c p =>
      simp only [List.cons_append, List.cons.injEq] at e
      obtain ⟨rfl, rfl⟩ := e
      have : p ++ w ++ rest = p ++ w ++ rest := rfl
      exact .step p w rest ws (blanks_nl p hp) hw hg hl

theorem best_noGlue (m rest : Str) (r : Rule α) (h : Best (m ++ rest) m r) : NoGlue m rest := by
  intro m' hm' hk
  obtain ⟨_, _, hmax, _⟩ := h
  rcases hk with hk | hk
  · obtain ⟨r', hr', hacc⟩ := lexeme_accepted (α := α) m' (Or.inl hk)
    exact hmax r' hr' m' hm' hacc
  · exact hmax ⟨IsComment, fun _ _ o => o = none⟩ (by rw [lexRules_eq]; exact List.mem_append_right _ (by unfold tailRules; simp)) m' hm' hk

theorem rule_kinds (r : Rule α) (hr : r ∈ lexRules) (m : Str) (h : r.accepts m) :
    (IsBlankStr m ∧ ∀ l o, r.makes m l o → o = none) ∨ (IsComment m ∧ ∀ l o, r.makes m l o → o = none) ∨
      (IsToken m ∧ ∀ l o, r.makes m l o → o ≠ none) ∨ (∃ c, m = [c] ∧ c ≠ '\n') ∧ ∀ l o, r.makes m l o → o ≠ none := by
  have numNone : ∀ m l o, NumItem (α := α) m l o → o ≠ none := by
    rintro m l o ⟨q, _, rfl⟩; simp
  have litNone : ∀ m l o, LitItem (α := α) m l o → o ≠ none := by
    intro m l o h
    unfold LitItem at h
    split_ifs at h
    · rw [h]; simp
    · obtain ⟨b, v, _, _, rfl⟩ := h; simp
  rw [lexRules_eq, List.mem_append, List.mem_append] at hr
  rcases hr with (hr | hr) | hr
  · obtain ⟨c, hc, rfl⟩ := List.mem_map.1 hr
    exact Or.inr (Or.inr (Or.inl ⟨Or.inl ⟨c, hc, h⟩, fun l o ho => by rw [show o = _ from ho]; simp⟩))
  · obtain ⟨k, hk, rfl⟩ := List.mem_map.1 hr
    refine Or.inr (Or.inr (Or.inl ⟨Or.inr (Or.inl ?_), fun l o ho => by rw [show o = _ from ho]; simp⟩))
    rw [show m = k.1 from h]; exact keyword_isWord k hk
  · unfold tailRules at hr
    simp only [List.mem_cons, List.not_mem_nil, or_false] at hr
    rcases hr with rfl | rfl | rfl | rfl | rfl | rfl | rfl
    · exact Or.inr (Or.inr (Or.inl ⟨Or.inr (Or.inl h), fun l o ho => by rw [show o = _ from ho]; simp⟩))
    · exact Or.inr (Or.inr (Or.inl ⟨Or.inr (Or.inr (Or.inl h)), fun l o ho => numNone m l o ho⟩))
    · exact Or.inr (Or.inr (Or.inl ⟨Or.inr (Or.inr (Or.inr (Or.inl h))), fun l o ho => numNone m l o ho⟩))
    · exact Or.inr (Or.inr (Or.inl ⟨Or.inr (Or.inr (Or.inr (Or.inr h))), fun l o ho => litNone m l o ho⟩))
    · exact Or.inl ⟨h, fun l o ho => ho⟩
    · exact Or.inr (Or.inl ⟨h, fun l o ho => ho⟩)
    · exact Or.inr (Or.inr (Or.inr ⟨h, fun l o ho => by rw [show o = _ from ho]; simp⟩))

theorem blankStr_blanks (m : Str) (h : IsBlankStr m) : Blanks m := by
  rcases h with rfl | rfl | rfl | rfl <;> exact .ws _ (by simp) _ .nil

/-- every text is a layout of some lexemes -/
theorem scans_layout (s : Str) (l : Nat) (its : List (Item α)) (h : Scans s l its) : ∃ ws, Layout ws s := by
  induction h with
  | nil line => exact ⟨[], .done _ (Or.inl .nil)⟩
  | emit m rest line r it its hb hmk _ ih =>
    obtain ⟨ws, hws⟩ := ih
    have hg := best_noGlue m rest r hb
    obtain ⟨_, _, _, i, hi, hacc, hf⟩ := hb
    have hr := List.mem_of_getElem? hi
    rcases rule_kinds r hr m hacc with ⟨_, h⟩ | ⟨_, h⟩ | ⟨h, _⟩ | ⟨⟨c, rfl, hc⟩, _⟩
    · cases h _ _ hmk
    · cases h _ _ hmk
    · exact ⟨m :: ws, by simpa using Layout.step [] m rest ws .nil (Or.inl h) hg hws⟩
    · by_cases hbl : IsBlankStr [c]
      · -- the blank rule comes first
        exfalso
        have : First (α := α) [c] ⟨IsBlankStr, fun _ _ o => o = none⟩ := first_ws c (by
          rcases hbl with h | h | h | h <;> simp at h <;> subst h <;> simp [IsWs])
        obtain ⟨j, hj, hjacc, hjf⟩ := this
        have hij : i = j := by
          rcases Nat.lt_trichotomy i j with hlt | he | hlt
          · exact absurd hacc (hjf i r hlt hi)
          · exact he
          · exact absurd hjacc (hf j _ hlt hj)
        subst hij
        rw [hi] at hj
        injection hj with hj
        subst hj
        cases hmk
      · exact ⟨[c] :: ws, by simpa using Layout.step [] [c] rest ws .nil (Or.inr ⟨c, rfl, hbl⟩) hg hws⟩
  | skip m rest line r its hb hmk _ ih =>
    obtain ⟨ws, hws⟩ := ih
    have hg := best_noGlue m rest r hb
    obtain ⟨_, _, _, i, hi, hacc, hf⟩ := hb
    have hr := List.mem_of_getElem? hi
    rcases rule_kinds r hr m hacc with ⟨h, _⟩ | ⟨h, _⟩ | ⟨_, h⟩ | ⟨_, h⟩
    · exact ⟨ws, layout_blanks ws rest m (blankStr_blanks m h) hws⟩
    · obtain ⟨t, rfl, ht⟩ := h
      cases rest with
      | nil =>
        refine ⟨[], .done _ (Or.inr ⟨[], t, .nil, ht, by simp⟩)⟩
      | cons c rest =>
        have hc : c = '\n' := by
          by_contra hc
          have := hg ('/' :: '/' :: t ++ [c]) ⟨rest, by simp⟩ (Or.inr ⟨t ++ [c], by simp, by
            intro hm
            rcases List.mem_append.1 hm with h | h
            · exact ht h
            · simp at h; exact hc h.symm⟩)
          simp at this
        subst hc
        have := layout_blanks ws rest ('/' :: '/' :: t ++ ['\n']) (.comment t ht [] .nil) (layout_nl ws rest hws)
        exact ⟨ws, by simpa using this⟩
    · exact absurd rfl (h _ _ hmk)
    · exact absurd rfl (h _ _ hmk)

/-! ### separators never glue -/

theorem noGlue_token (w rest : Str) (hw : IsToken w) (hr : ∀ c ∈ rest.head?, ¬ (Letter c ∨ Digit c) ∧ c ≠ '.') : NoGlue w rest := by
  intro m hm hk
  have hlong : m.length = 1 ∨ Long m := by
    rcases hk with h | h
    · exact long_token m h
    · exact Or.inr (Or.inr (Or.inr (Or.inr (Or.inr h))))
  have hne : w ≠ [] := lexeme_ne w (Or.inl hw)
  rcases hlong with h | h
  · rw [h]; exact List.length_pos_iff.2 hne
  · rcases hw with ⟨c, hc, rfl⟩ | hw | hw | hw | hw
    · cases m with
      | nil => simp
      | cons d m =>
        exfalso
        obtain ⟨u, hu⟩ := hm
        simp only [List.cons_append, List.nil_append, List.cons.injEq] at hu
        obtain ⟨rfl, _⟩ := hu
        rcases long_other _ _ h with h | h | h | h
        · exact h.ne_punct hc
        · exact h.ne_punct hc
        · subst h; revert hc; decide
        · subst h; revert hc; decide
    · exact word_extent w rest m hw (fun c hc => (hr c hc).1) hm h
    · exact num_extent w rest m (Or.inl hw) (fun c hc => ⟨fun hd => (hr c hc).1 (Or.inr hd), fun he => absurd he (hr c hc).2⟩) hm h
    · exact num_extent w rest m (Or.inr hw) (fun c hc => ⟨fun hd => (hr c hc).1 (Or.inr hd), fun he => absurd he (hr c hc).2⟩) hm h
    · exact lit_extent w rest m hw hm h

theorem blanks_head (p : Str) (hp : Blanks p) (hne : p ≠ []) (rest : Str) : ∀ c ∈ (p ++ rest).head?, ¬ (Letter c ∨ Digit c) ∧ c ≠ '.' := by
  cases hp with
  | nil => exact absurd rfl hne
  | ws c h s _ =>
    intro d hd
    simp at hd; subst hd
    rcases h with rfl | rfl | rfl | rfl <;> unfold Letter Digit <;> decide
  | comment t h s _ =>
    intro d hd
    simp at hd; subst hd
    unfold Letter Digit; decide

end S2P
