import Verif.Lemmas.Scan

set_option linter.unusedSectionVars false
set_option linter.unusedVariables false

namespace S2P
variable {α : Type} [FP α]

/-! ## Reading one lexeme -/

/-- the kinds of text longer than one character that a rule can take -/
def Long (m : Str) : Prop := IsWord m ∨ IsNumA m ∨ IsNumB m ∨ IsLiteral m ∨ IsComment m

theorem Letter.ne_punct {c : Char} (h : Letter c) : c ∉ puncts := by
  intro hm
  simp only [puncts, List.mem_cons, List.not_mem_nil, or_false] at hm
  rcases hm with rfl | rfl | rfl | rfl | rfl | rfl | rfl | rfl | rfl | rfl | rfl <;> revert h <;> unfold Letter <;> decide

theorem Digit.ne_punct {c : Char} (h : Digit c) : c ∉ puncts := by
  intro hm
  simp only [puncts, List.mem_cons, List.not_mem_nil, or_false] at hm
  rcases hm with rfl | rfl | rfl | rfl | rfl | rfl | rfl | rfl | rfl | rfl | rfl <;> revert h <;> unfold Digit <;> decide

theorem Digit.not_letter {c : Char} (h : Digit c) : ¬ Letter c := by
  obtain ⟨h1, h2⟩ := h
  rw [Char.le_def] at h1 h2
  rintro (⟨h3, h4⟩ | ⟨h3, h4⟩ | rfl)
  · rw [Char.le_def] at h3
    have := UInt32.le_trans h3 h2
    revert this; decide
  · rw [Char.le_def] at h3
    have := UInt32.le_trans h3 h2
    revert this; decide
  · revert h2; decide

/-- the first character of a word, number, literal or comment -/
def WordHead (c : Char) : Prop := Letter c
def NumHead (c : Char) : Prop := Digit c ∨ c = '+' ∨ c = '-' ∨ c = '.'

theorem isWord_head (c : Char) (m : Str) (h : IsWord (c :: m)) : Letter c := by
  obtain ⟨c', t, e, h1, _⟩ := h
  injection e with e1 e2; rw [e1]; exact h1

theorem isNumA_head (c : Char) (m : Str) (h : IsNumA (c :: m)) : NumHead c := by
  obtain ⟨sg, ip, hs, h1, hne, h2⟩ := h
  rcases hs with rfl | rfl | rfl
  · cases ip with
    | nil => exact absurd rfl hne
    | cons d ip =>
      have : c = d := by
        rcases h2 with h2 | ⟨fp, _, h2⟩ <;> simp at h2 <;> exact h2.1
      rw [this]; exact Or.inl (h1 d (by simp))
  · have : c = '+' := by rcases h2 with h2 | ⟨fp, _, h2⟩ <;> simp at h2 <;> exact h2.1
    simp [NumHead, this]
  · have : c = '-' := by rcases h2 with h2 | ⟨fp, _, h2⟩ <;> simp at h2 <;> exact h2.1
    simp [NumHead, this]

theorem isNumB_head (c : Char) (m : Str) (h : IsNumB (c :: m)) : NumHead c := by
  obtain ⟨sg, fp, hs, h1, hne, h2⟩ := h
  rcases hs with rfl | rfl | rfl <;> simp at h2 <;> simp [NumHead, h2.1]

theorem isLiteral_head (c : Char) (m : Str) (h : IsLiteral (c :: m)) : c = '"' := by
  obtain ⟨b, v, _, h2⟩ := h
  simp at h2; exact h2.1

theorem isComment_head (c : Char) (m : Str) (h : IsComment (c :: m)) : c = '/' := by
  obtain ⟨t, h2, _⟩ := h
  simp at h2; exact h2.1

theorem long_ne_nil (m : Str) (h : Long m) : m ≠ [] := by
  rintro rfl
  rcases h with h | h | h | h | h
  · obtain ⟨c, t, h, _⟩ := h; simp at h
  · obtain ⟨sg, ip, hs, h1, hne, h2⟩ := h
    rcases h2 with h2 | ⟨fp, _, h2⟩
    · exact hne (List.append_eq_nil_iff.1 h2.symm).2
    · simp at h2
  · obtain ⟨sg, fp, hs, h1, hne, h2⟩ := h; simp at h2
  · obtain ⟨b, v, _, h2⟩ := h; simp at h2
  · obtain ⟨t, h, _⟩ := h; simp at h

theorem Letter.not_num {c : Char} (h : Letter c) : ¬ NumHead c := by
  rintro (h' | rfl | rfl | rfl)
  · exact h'.not_letter h
  all_goals revert h; unfold Letter; decide
theorem Letter.ne_quote {c : Char} (h : Letter c) : c ≠ '"' := by rintro rfl; revert h; unfold Letter; decide
theorem Letter.ne_slash {c : Char} (h : Letter c) : c ≠ '/' := by rintro rfl; revert h; unfold Letter; decide
theorem NumHead.ne_quote {c : Char} (h : NumHead c) : c ≠ '"' := by
  rintro rfl; revert h; unfold NumHead Digit; decide
theorem NumHead.ne_slash {c : Char} (h : NumHead c) : c ≠ '/' := by
  rintro rfl; revert h; unfold NumHead Digit; decide

/-- which kind of long lexeme starts with `c` -/
theorem long_letter (c : Char) (m : Str) (h : Long (c :: m)) (hc : Letter c) : IsWord (c :: m) := by
  rcases h with h | h | h | h | h
  · exact h
  · exact absurd (isNumA_head c m h) hc.not_num
  · exact absurd (isNumB_head c m h) hc.not_num
  · exact absurd (isLiteral_head c m h) hc.ne_quote
  · exact absurd (isComment_head c m h) hc.ne_slash

theorem long_numHead (c : Char) (m : Str) (h : Long (c :: m)) (hc : NumHead c) : IsNumA (c :: m) ∨ IsNumB (c :: m) := by
  rcases h with h | h | h | h | h
  · exact absurd hc (isWord_head c m h).not_num
  · exact Or.inl h
  · exact Or.inr h
  · exact absurd (isLiteral_head c m h) hc.ne_quote
  · exact absurd (isComment_head c m h) hc.ne_slash

theorem long_quote (m : Str) (h : Long ('"' :: m)) : IsLiteral ('"' :: m) := by
  rcases h with h | h | h | h | h
  · exact absurd rfl (isWord_head _ m h).ne_quote
  · exact absurd rfl (isNumA_head _ m h).ne_quote
  · exact absurd rfl (isNumB_head _ m h).ne_quote
  · exact h
  · exact absurd (isComment_head _ m h) (by decide)

theorem long_slash (m : Str) (h : Long ('/' :: m)) : IsComment ('/' :: m) := by
  rcases h with h | h | h | h | h
  · exact absurd rfl (isWord_head _ m h).ne_slash
  · exact absurd rfl (isNumA_head _ m h).ne_slash
  · exact absurd rfl (isNumB_head _ m h).ne_slash
  · exact absurd (isLiteral_head _ m h) (by decide)
  · exact h

theorem long_other (c : Char) (m : Str) (h : Long (c :: m)) : Letter c ∨ NumHead c ∨ c = '"' ∨ c = '/' := by
  rcases h with h | h | h | h | h
  · exact Or.inl (isWord_head _ m h)
  · exact Or.inr (Or.inl (isNumA_head _ m h))
  · exact Or.inr (Or.inl (isNumB_head _ m h))
  · exact Or.inr (Or.inr (Or.inl (isLiteral_head _ m h)))
  · exact Or.inr (Or.inr (Or.inr (isComment_head _ m h)))

theorem keyword_isWord (k : Str × Tok α) (hk : k ∈ keywords) : IsWord k.1 := by
  have : ∀ c t, Letter c → (∀ x ∈ t, Letter x) → IsWord (c :: t) := fun c t h h' => ⟨c, t, rfl, h, fun x hx => Or.inl (h' x hx)⟩
  simp only [keywords, List.mem_cons, List.not_mem_nil, or_false] at hk
  rcases hk with rfl | rfl | rfl | rfl | rfl | rfl | rfl | rfl <;> refine this _ _ ?_ ?_ <;> unfold Letter <;> decide

/-- every rule accepts single characters or long lexemes only -/
theorem rule_long (r : Rule α) (hr : r ∈ lexRules) (m : Str) (h : r.accepts m) : m.length = 1 ∨ Long m := by
  unfold lexRules at hr
  rw [List.mem_append, List.mem_append] at hr
  rcases hr with (hr | hr) | hr
  · obtain ⟨c, _, rfl⟩ := List.mem_map.1 hr
    left; simp only at h; rw [h]; rfl
  · obtain ⟨k, hk, rfl⟩ := List.mem_map.1 hr
    right; left; simp only at h; rw [h]; exact keyword_isWord k hk
  · simp only [List.mem_cons, List.not_mem_nil, or_false] at hr
    rcases hr with rfl | rfl | rfl | rfl | rfl | rfl | rfl
    · exact Or.inr (Or.inl h)
    · exact Or.inr (Or.inr (Or.inl h))
    · exact Or.inr (Or.inr (Or.inr (Or.inl h)))
    · exact Or.inr (Or.inr (Or.inr (Or.inr (Or.inl h))))
    · left; rcases h with rfl | rfl | rfl | rfl <;> rfl
    · exact Or.inr (Or.inr (Or.inr (Or.inr (Or.inr h))))
    · left; obtain ⟨c, rfl, _⟩ := h; rfl

/-- `r` is the first rule accepting `m` -/
def First (m : Str) (r : Rule α) : Prop :=
  ∃ i, (lexRules (α := α))[i]? = some r ∧ r.accepts m ∧ ∀ (j : Nat) (r' : Rule α), j < i → (lexRules (α := α))[j]? = some r' → ¬ r'.accepts m

theorem best_of (m rest : Str) (r : Rule α) (hne : m ≠ []) (hf : First m r)
    (hmax : ∀ m', m' <+: m ++ rest → Long m' → m'.length ≤ m.length) : Best (m ++ rest) m r := by
  refine ⟨hne, List.prefix_append _ _, ?_, hf⟩
  intro r' hr' m' hm' hacc
  rcases rule_long r' hr' m' hacc with h | h
  · rw [h]; exact List.length_pos_iff.2 hne
  · exact hmax m' hm' h

theorem first_of_append (m : Str) (pre post : List (Rule α)) (r : Rule α) (h : lexRules = pre ++ r :: post) (hacc : r.accepts m)
    (hno : ∀ r' ∈ pre, ¬ r'.accepts m) : First m r := by
  refine ⟨pre.length, by rw [h]; simp, hacc, ?_⟩
  intro j r' hj hr'
  rw [h, List.getElem?_append_left hj] at hr'
  exact hno r' (List.mem_of_getElem? hr')

theorem first_exists (m : Str) (h : ∃ r ∈ lexRules (α := α), r.accepts m) : ∃ r : Rule α, First m r := by
  classical
  obtain ⟨r, hr, hacc⟩ := h
  obtain ⟨i, hi⟩ := List.getElem?_of_mem hr
  have hex : ∃ i, ∃ r : Rule α, (lexRules (α := α))[i]? = some r ∧ r.accepts m := ⟨i, r, hi, hacc⟩
  obtain ⟨r', h1, h2⟩ := Nat.find_spec hex
  exact ⟨r', Nat.find hex, h1, h2, fun j r'' hj hr'' hacc'' => Nat.find_min hex hj ⟨r'', hr'', hacc''⟩⟩

def punctRules : List (Rule α) := puncts.map (fun c => ⟨(· = [c]), fun _ l o => o = some (.tok (.p c) l)⟩)
def keyRules : List (Rule α) := keywords.map (fun k => ⟨(· = k.1), fun _ l o => o = some (.tok k.2 l)⟩)

def tailRules : List (Rule α) :=
  [⟨IsWord, fun m l o => o = some (.tok (.id m) l)⟩, ⟨IsNumA, NumItem⟩, ⟨IsNumB, NumItem⟩, ⟨IsLiteral, LitItem⟩,
   ⟨IsBlankStr, fun _ _ o => o = none⟩, ⟨IsComment, fun _ _ o => o = none⟩,
   ⟨fun m => ∃ c, m = [c] ∧ c ≠ '\n', fun _ _ o => o = some .bad⟩]

theorem lexRules_eq : lexRules (α := α) = punctRules ++ keyRules ++ tailRules := rfl

theorem punctRules_acc (r : Rule α) (hr : r ∈ punctRules) (m : Str) (h : r.accepts m) : ∃ c ∈ puncts, m = [c] := by
  obtain ⟨c, hc, rfl⟩ := List.mem_map.1 hr
  exact ⟨c, hc, h⟩

theorem keyRules_acc (r : Rule α) (hr : r ∈ keyRules) (m : Str) (h : r.accepts m) : ∃ k ∈ keywords (α := α), m = k.1 := by
  obtain ⟨c, hc, rfl⟩ := List.mem_map.1 hr
  exact ⟨c, hc, h⟩

/-! ### punctuation -/

theorem first_punct (c : Char) (hc : c ∈ puncts) : First (α := α) [c] ⟨(· = [c]), fun _ l o => o = some (.tok (.p c) l)⟩ := by
  obtain ⟨p1, p2, h⟩ := List.append_of_mem hc
  have hnd : puncts.Nodup := by decide
  rw [h] at hnd
  have hnot : c ∉ p1 := by
    intro hm
    rw [List.nodup_append] at hnd
    exact hnd.2.2 c hm c (by simp) rfl
  refine first_of_append [c] (p1.map (fun c => ⟨(· = [c]), fun _ l o => o = some (.tok (.p c) l)⟩))
    (p2.map (fun c => ⟨(· = [c]), fun _ l o => o = some (.tok (.p c) l)⟩) ++ (keyRules ++ tailRules)) _ ?_ rfl ?_
  · rw [lexRules_eq, punctRules, h, List.map_append, List.map_cons]
    simp only [List.append_assoc, List.cons_append]
  · intro r' hr'
    obtain ⟨d, hd, rfl⟩ := List.mem_map.1 hr'
    simp only [List.cons.injEq, and_true]
    rintro rfl; exact hnot hd

theorem lex_punct (c : Char) (hc : c ∈ puncts) (rest : Str) (l : Nat) :
    (lexFrom (c :: rest) l : List (Item α)) = .tok (.p c) l :: lexFrom rest l := by
  have hnl : c ≠ '\n' := by rintro rfl; revert hc; decide
  have hb : Best (α := α) ([c] ++ rest) [c] ⟨(· = [c]), fun _ l o => o = some (.tok (.p c) l)⟩ := by
    refine best_of [c] rest _ (by simp) (first_punct c hc) ?_
    intro m' hm' hl
    cases m' with
    | nil => simp
    | cons d m' =>
      obtain ⟨t, ht⟩ := hm'
      simp only [List.cons_append, List.nil_append, List.cons.injEq] at ht
      obtain ⟨rfl, _⟩ := ht
      exfalso
      rcases long_other _ _ hl with h | h | h | h
      · exact h.ne_punct hc
      · rcases h with h | rfl | rfl | rfl
        · exact h.ne_punct hc
        all_goals revert hc; decide
      · subst h; revert hc; decide
      · subst h; revert hc; decide
  have h0 : [c].count '\n' = 0 := by simp [hnl]
  have := lexFrom_best ([c] ++ rest) [c] _ hb l (some (.tok (.p c) l)) (by simp [h0]) rest rfl
  rw [h0] at this
  exact this

/-! ### words -/

theorem word_extent (w rest m' : Str) (hw : IsWord w) (hr : ∀ c ∈ rest.head?, ¬ (Letter c ∨ Digit c)) (hm : m' <+: w ++ rest)
    (h : Long m') : m'.length ≤ w.length := by
  obtain ⟨c, t, rfl, hc, ht⟩ := hw
  cases m' with
  | nil => simp
  | cons d m' =>
    obtain ⟨u, hu⟩ := hm
    simp only [List.cons_append, List.cons.injEq] at hu
    obtain ⟨rfl, hu⟩ := hu
    have hword := long_letter _ _ h hc
    obtain ⟨_, t', e, _, ht'⟩ := hword
    injection e with _ e; subst e
    by_contra hlt
    simp only [List.length_cons] at hlt
    have hlen : t.length < m'.length := by omega
    have h1 := congrArg (fun x => x[t.length]?) hu
    simp only [List.getElem?_append_left hlen, List.getElem?_append_right (Nat.le_refl _), Nat.sub_self] at h1
    rw [List.getElem?_eq_getElem hlen] at h1
    have h2 : rest.head? = some (m'[t.length]) := by rw [List.head?_eq_getElem?]; exact h1.symm
    exact hr _ (by rw [h2]; rfl) (ht' _ (List.getElem_mem hlen))

theorem isWord_not_punct (w : Str) (hw : IsWord w) : ¬ ∃ c ∈ puncts, w = [c] := by
  rintro ⟨c, hc, rfl⟩
  exact (isWord_head c [] hw).ne_punct hc

theorem first_word (w : Str) (hw : IsWord w) (hk : ∀ k ∈ keywords (α := α), w ≠ k.1) :
    First (α := α) w ⟨IsWord, fun m l o => o = some (.tok (.id m) l)⟩ := by
  refine first_of_append w (punctRules ++ keyRules) _ _ lexRules_eq hw ?_
  intro r' hr' hacc
  rcases List.mem_append.1 hr' with h | h
  · exact isWord_not_punct w hw (punctRules_acc r' h w hacc)
  · obtain ⟨k, hk', he⟩ := keyRules_acc r' h w hacc
    exact hk k hk' he

theorem first_key (k : Str × Tok α) (hk : k ∈ keywords) : First (α := α) k.1 ⟨(· = k.1), fun _ l o => o = some (.tok k.2 l)⟩ := by
  obtain ⟨p1, p2, h⟩ := List.append_of_mem hk
  have hnd : ((keywords (α := α)).map Prod.fst).Nodup := by
    have : (keywords (α := α)).map Prod.fst = [c!"angle", c!"dia", c!"dim", c!"draw", c!"load", c!"page", c!"rad", c!"text"] := rfl
    rw [this]; decide
  rw [h, List.map_append, List.nodup_append] at hnd
  have hnot : ∀ k' ∈ p1, k'.1 ≠ k.1 := by
    intro k' hk' e
    exact hnd.2.2 k'.1 (List.mem_map_of_mem hk') k.1 (by simp) e
  refine first_of_append k.1 (punctRules ++ p1.map (fun k => ⟨(· = k.1), fun _ l o => o = some (.tok k.2 l)⟩))
    (p2.map (fun k => ⟨(· = k.1), fun _ l o => o = some (.tok k.2 l)⟩) ++ tailRules) _ ?_ rfl ?_
  · rw [lexRules_eq, keyRules, h, List.map_append, List.map_cons]
    simp only [List.append_assoc, List.cons_append]
  · intro r' hr' hacc
    rcases List.mem_append.1 hr' with h' | h'
    · exact isWord_not_punct k.1 (keyword_isWord k hk) (punctRules_acc r' h' _ hacc)
    · obtain ⟨k', hk', rfl⟩ := List.mem_map.1 h'
      exact hnot k' hk' hacc.symm

theorem Letter.ne_nl {c : Char} (h : Letter c) : c ≠ '\n' := by rintro rfl; revert h; unfold Letter; decide
theorem Digit.ne_nl {c : Char} (h : Digit c) : c ≠ '\n' := by rintro rfl; revert h; unfold Digit; decide

theorem isWord_count (w : Str) (hw : IsWord w) : w.count '\n' = 0 := by
  rw [List.count_eq_zero]
  obtain ⟨c, t, rfl, hc, ht⟩ := hw
  intro hm
  rcases List.mem_cons.1 hm with h | h
  · exact hc.ne_nl h.symm
  · rcases ht _ h with h' | h'
    · exact h'.ne_nl rfl
    · exact h'.ne_nl rfl

theorem isWord_ne (w : Str) (hw : IsWord w) : w ≠ [] := by rintro rfl; obtain ⟨c, t, h, _⟩ := hw; simp at h

theorem lex_word (w : Str) (hw : IsWord w) (hk : ∀ k ∈ keywords (α := α), w ≠ k.1) (rest : Str)
    (hr : ∀ c ∈ rest.head?, ¬ (Letter c ∨ Digit c)) (l : Nat) :
    (lexFrom (w ++ rest) l : List (Item α)) = .tok (.id w) l :: lexFrom rest l := by
  have hb : Best (α := α) (w ++ rest) w _ :=
    best_of w rest _ (isWord_ne w hw) (first_word w hw hk) (fun m' hm' h => word_extent w rest m' hw hr hm' h)
  have := lexFrom_best (w ++ rest) w _ hb l (some (.tok (.id w) l)) (by simp [isWord_count w hw]) rest rfl
  rw [isWord_count w hw] at this
  exact this

theorem lex_key (k : Str × Tok α) (hk : k ∈ keywords) (rest : Str)
    (hr : ∀ c ∈ rest.head?, ¬ (Letter c ∨ Digit c)) (l : Nat) :
    (lexFrom (k.1 ++ rest) l : List (Item α)) = .tok k.2 l :: lexFrom rest l := by
  have hw := keyword_isWord k hk
  have hb : Best (α := α) (k.1 ++ rest) k.1 _ :=
    best_of k.1 rest _ (isWord_ne _ hw) (first_key k hk) (fun m' hm' h => word_extent k.1 rest m' hw hr hm' h)
  have := lexFrom_best (k.1 ++ rest) k.1 _ hb l (some (.tok k.2 l)) (by simp [isWord_count _ hw]) rest rfl
  rw [isWord_count _ hw] at this
  exact this

/-! ### numbers -/

theorem isNum_chars (w : Str) (h : IsNumA w ∨ IsNumB w) : ∀ c ∈ w, NumHead c := by
  have hs : ∀ sg, IsSignStr sg → ∀ c ∈ sg, NumHead c := by
    rintro sg (rfl | rfl | rfl) c hc <;> simp at hc <;> simp [NumHead, hc]
  have hd : ∀ m, Digits m → ∀ c ∈ m, NumHead c := fun m h c hc => Or.inl (h c hc)
  intro c hc
  rcases h with ⟨sg, ip, h1, h2, _, rfl | ⟨fp, h3, rfl⟩⟩ | ⟨sg, fp, h1, h2, _, rfl⟩
  · rcases List.mem_append.1 hc with h | h
    · exact hs sg h1 c h
    · exact hd ip h2 c h
  · rcases List.mem_append.1 hc with h | h
    · rcases List.mem_append.1 h with h | h
      · exact hs sg h1 c h
      · exact hd ip h2 c h
    · rcases List.mem_cons.1 h with rfl | h
      · simp [NumHead]
      · exact hd fp h3 c h
  · rcases List.mem_append.1 hc with h | h
    · exact hs sg h1 c h
    · rcases List.mem_cons.1 h with rfl | h
      · simp [NumHead]
      · exact hd fp h2 c h

theorem isNum_ne (w : Str) (h : IsNumA w ∨ IsNumB w) : w ≠ [] :=
  long_ne_nil w (by rcases h with h | h; exacts [Or.inr (Or.inl h), Or.inr (Or.inr (Or.inl h))])

theorem NumHead.ne_nl {c : Char} (h : NumHead c) : c ≠ '\n' := by rintro rfl; revert h; unfold NumHead Digit; decide

theorem isNum_count (w : Str) (h : IsNumA w ∨ IsNumB w) : w.count '\n' = 0 := by
  rw [List.count_eq_zero]
  intro hm
  exact (isNum_chars w h _ hm).ne_nl rfl

/-- uniform shape of numerals: sign, digits, optional point and digits -/
theorem isNum_shape (w : Str) (h : IsNumA w ∨ IsNumB w) :
    ∃ sg ip tl, IsSignStr sg ∧ Digits ip ∧ w = sg ++ ip ++ tl ∧ (tl = [] ∧ ip ≠ [] ∨ ∃ fp, Digits fp ∧ tl = '.' :: fp) := by
  rcases h with ⟨sg, ip, h1, h2, h3, rfl | ⟨fp, h4, rfl⟩⟩ | ⟨sg, fp, h1, h2, h3, rfl⟩
  · exact ⟨sg, ip, [], h1, h2, by simp, Or.inl ⟨rfl, h3⟩⟩
  · exact ⟨sg, ip, '.' :: fp, h1, h2, rfl, Or.inr ⟨fp, h4, rfl⟩⟩
  · exact ⟨sg, [], '.' :: fp, h1, by simp [Digits], by simp, Or.inr ⟨fp, h2, rfl⟩⟩

/-- two strings of digits, one followed by a non-digit, the other a prefix of the whole: not longer -/
theorem digits_prefix (a b x y : Str) (ha : Digits a) (hb : Digits b) (hx : ∀ c ∈ x.head?, ¬ Digit c) (h : b ++ y = a ++ x) :
    b.length ≤ a.length := by
  by_contra hlt
  have hlen : a.length < b.length := by omega
  have h1 := congrArg (fun z => z[a.length]?) h
  simp only [List.getElem?_append_left hlen, List.getElem?_append_right (Nat.le_refl _), Nat.sub_self] at h1
  rw [List.getElem?_eq_getElem hlen] at h1
  have h2 : x.head? = some (b[a.length]) := by rw [List.head?_eq_getElem?]; exact h1.symm
  exact hx _ (by rw [h2]; rfl) (hb _ (List.getElem_mem hlen))

theorem sign_split (sg sg' x y : Str) (h : IsSignStr sg) (h' : IsSignStr sg') (hx : ∀ c ∈ x.head?, c ≠ '+' ∧ c ≠ '-')
    (hy : ∀ c ∈ y.head?, c ≠ '+' ∧ c ≠ '-') (e : sg ++ x = sg' ++ y) : sg = sg' ∧ x = y := by
  rcases h with rfl | rfl | rfl <;> rcases h' with rfl | rfl | rfl <;> simp at e
  · exact ⟨rfl, e⟩
  · rw [e] at hx; have := hx '+' (by simp); simp at this
  · rw [e] at hx; have := hx '-' (by simp); simp at this
  · rw [← e] at hy; have := hy '+' (by simp); simp at this
  · exact ⟨rfl, e⟩
  · rw [← e] at hy; have := hy '-' (by simp); simp at this
  · exact ⟨rfl, e⟩

theorem digit_head (ip tl : Str) (h : Digits ip) (ht : ∀ c ∈ tl.head?, c ≠ '+' ∧ c ≠ '-') (c : Char) (hc : c ∈ (ip ++ tl).head?) :
    c ≠ '+' ∧ c ≠ '-' := by
  cases ip with
  | nil => exact ht c hc
  | cons d ip =>
    simp at hc; subst hc
    have := h d (by simp)
    exact ⟨fun e => digit_plus (e ▸ this), fun e => digit_minus (e ▸ this)⟩

theorem num_extent (w rest m' : Str) (hw : IsNumA w ∨ IsNumB w) (hr : ∀ c ∈ rest.head?, ¬ Digit c ∧ (c = '.' → '.' ∈ w))
    (hm : m' <+: w ++ rest) (h : Long m') : m'.length ≤ w.length := by
  have hne := isNum_ne w hw
  cases w with
  | nil => exact absurd rfl hne
  | cons c t =>
    cases m' with
    | nil => simp
    | cons d m' =>
      have hm2 := hm
      obtain ⟨u, hu⟩ := hm
      have hd : d = c := by simp at hu; exact hu.1
      subst hd
      have hh := isNum_chars _ hw d (by simp)
      have hnum := long_numHead d m' h hh
      obtain ⟨sg, ip, tl, h1, h2, e, h3⟩ := isNum_shape _ hw
      obtain ⟨sg', ip', tl', h1', h2', e', h3'⟩ := isNum_shape _ hnum
      have htl : ∀ c ∈ tl.head?, ¬ Digit c ∧ c ≠ '+' ∧ c ≠ '-' := by
        rcases h3 with ⟨rfl, _⟩ | ⟨fp, _, rfl⟩ <;> simp [digit_dot]
      have htl' : ∀ c ∈ tl'.head?, ¬ Digit c ∧ c ≠ '+' ∧ c ≠ '-' := by
        rcases h3' with ⟨rfl, _⟩ | ⟨fp, _, rfl⟩ <;> simp [digit_dot]
      have hip0 : ip ++ tl ≠ [] := by rcases h3 with ⟨rfl, h⟩ | ⟨fp, _, rfl⟩ <;> simp [*]
      have hip0' : ip' ++ tl' ≠ [] := by rcases h3' with ⟨rfl, h⟩ | ⟨fp, _, rfl⟩ <;> simp [*]
      have hsplit : sg' = sg ∧ ip' ++ tl' ++ u = ip ++ tl ++ rest := by
        apply sign_split sg' sg _ _ h1' h1
        · intro c hc
          rw [List.head?_append_of_ne_nil _ hip0'] at hc
          exact digit_head ip' tl' h2' (fun c hc => (htl' c hc).2) c hc
        · intro c hc
          rw [List.head?_append_of_ne_nil _ hip0] at hc
          exact digit_head ip tl h2 (fun c hc => (htl c hc).2) c hc
        · rw [e, e'] at hu
          simpa using hu
      obtain ⟨rfl, hsp⟩ := hsplit
      have hlen : (d :: m').length = sg'.length + ip'.length + tl'.length := by rw [e']; simp; omega
      have hlen2 : (d :: t).length = sg'.length + ip.length + tl.length := by rw [e]; simp; omega
      rw [hlen, hlen2]
      have hrest_d : ∀ c ∈ (tl ++ rest).head?, ¬ Digit c := by
        intro c hc
        rcases h3 with ⟨rfl, _⟩ | ⟨fp, _, rfl⟩
        · exact (hr c (by simpa using hc)).1
        · simp at hc; subst hc; exact digit_dot
      have hle := digits_prefix ip ip' (tl ++ rest) (tl' ++ u) h2 h2' hrest_d (by simpa using hsp)
      rcases h3' with ⟨rfl, hip'⟩ | ⟨fp', hfp', rfl⟩
      · simp; omega
      · -- the point of `m'`
        have hnd' : ∀ c ∈ ('.' :: fp' ++ u).head?, ¬ Digit c := by simp [digit_dot]
        have hge := digits_prefix ip' ip ('.' :: fp' ++ u) (tl ++ rest) h2' h2 hnd' (by simpa using hsp.symm)
        have heq : ip' = ip ∧ '.' :: fp' ++ u = tl ++ rest := by
          refine List.append_inj ?_ (by omega)
          simpa using hsp
        obtain ⟨rfl, hsp2⟩ := heq
        rcases h3 with ⟨rfl, hip⟩ | ⟨fp, hfp, rfl⟩
        · exfalso
          simp only [List.nil_append] at hsp2
          have := (hr '.' (by rw [← hsp2]; simp)).2 rfl
          rw [e] at this
          simp only [List.append_nil, List.mem_append] at this
          rcases this with h | h
          · rcases h1 with rfl | rfl | rfl <;> simp at h
          · exact digit_dot (h2 _ h)
        · simp only [List.cons_append, List.cons.injEq, true_and] at hsp2
          have := digits_prefix fp fp' rest u hfp hfp' (fun c hc => (hr c hc).1) hsp2
          simp; omega

theorem NumHead.ne_punct {c : Char} (h : NumHead c) : c ∉ puncts := by
  rcases h with h | rfl | rfl | rfl
  · exact h.ne_punct
  all_goals decide

theorem isNum_not_first (w : Str) (h : IsNumA w ∨ IsNumB w) (r' : Rule α) (hr' : r' ∈ punctRules (α := α) ++ keyRules) : ¬ r'.accepts w := by
  intro hacc
  rcases List.mem_append.1 hr' with hp | hp
  · obtain ⟨c, hc, rfl⟩ := punctRules_acc r' hp w hacc
    exact (isNum_chars _ h c (by simp)).ne_punct hc
  · obtain ⟨k, hk, rfl⟩ := keyRules_acc r' hp w hacc
    obtain ⟨c, t, e, hl, _⟩ := keyword_isWord k hk
    exact hl.not_num (isNum_chars _ h c (by rw [e]; simp))

theorem isNum_not_word (w : Str) (h : IsNumA w ∨ IsNumB w) : ¬ IsWord w := by
  rintro ⟨c, t, rfl, hl, _⟩
  exact hl.not_num (isNum_chars _ h c (by simp))

theorem first_num (w : Str) (h : IsNumA w ∨ IsNumB w) : ∃ r : Rule α, First w r ∧ r.makes = NumItem := by
  by_cases hA : IsNumA w
  · refine ⟨⟨IsNumA, NumItem⟩, ?_, rfl⟩
    refine first_of_append w (punctRules ++ keyRules ++ [⟨IsWord, fun m l o => o = some (.tok (.id m) l)⟩]) (tailRules.drop 2) _ ?_ hA ?_
    · rfl
    · intro r' hr'
      rcases List.mem_append.1 hr' with hp | hp
      · exact isNum_not_first w h r' hp
      · simp only [List.mem_singleton] at hp; subst hp; exact isNum_not_word w h
  · have hB := h.resolve_left hA
    refine ⟨⟨IsNumB, NumItem⟩, ?_, rfl⟩
    refine first_of_append w (punctRules ++ keyRules ++ [⟨IsWord, fun m l o => o = some (.tok (.id m) l)⟩, ⟨IsNumA, NumItem⟩]) (tailRules.drop 3) _ ?_ hB ?_
    · rfl
    · intro r' hr'
      rcases List.mem_append.1 hr' with hp | hp
      · exact isNum_not_first w h r' hp
      · simp only [List.mem_cons, List.not_mem_nil, or_false] at hp
        rcases hp with rfl | rfl
        · exact isNum_not_word w h
        · exact hA

theorem lex_num (w : Str) (h : IsNumA w ∨ IsNumB w) (q : Rat) (hq : Denotes w q) (rest : Str)
    (hr : ∀ c ∈ rest.head?, ¬ Digit c ∧ (c = '.' → '.' ∈ w)) (l : Nat) :
    (lexFrom (w ++ rest) l : List (Item α)) =
      (match (FP.ofDec32 q : Option α) with | some x => .tok (.num x) l | none => .boom) :: lexFrom rest l := by
  obtain ⟨r, hf, hm⟩ := first_num (α := α) w h
  have hb : Best (α := α) (w ++ rest) w r := best_of w rest _ (isNum_ne w h) hf (fun m' hm' h' => num_extent w rest m' h hr hm' h')
  have := lexFrom_best (w ++ rest) w _ hb l (some (match (FP.ofDec32 q : Option α) with | some x => .tok (.num x) l | none => .boom))
    (by rw [hm, isNum_count w h]; exact ⟨q, hq, rfl⟩) rest rfl
  rw [isNum_count w h] at this
  exact this

/-! ### string literals -/

theorem quoted_extent (b v : Str) (h : Quoted b v) : ∀ b' v' x y, Quoted b' v' → b' ++ '"' :: y = b ++ '"' :: x → b' = b := by
  induction h with
  | nil =>
    intro b' v' x y h' e
    cases h' with
    | nil => rfl
    | plain c hc m v _ => simp at e; exact absurd e.1 hc.1
    | newline m v _ => simp at e
    | esc c hc m v _ => simp at e
  | plain c hc m v _ ih =>
    intro b' v' x y h' e
    cases h' with
    | nil => simp at e; exact absurd e.1.symm hc.1
    | plain d hd m' v' hq =>
      simp only [List.cons_append, List.cons.injEq] at e
      rw [e.1, ih m' v' x y hq e.2]
    | newline m' v' _ => simp at e; exact absurd e.1.symm hc.2.1
    | esc d hd m' v' _ => simp at e; exact absurd e.1.symm hc.2.1
  | newline m v _ ih =>
    intro b' v' x y h' e
    cases h' with
    | nil => simp at e
    | plain d hd m' v' hq => simp at e; exact absurd e.1 hd.2.1
    | newline m' v' hq => simp only [List.cons_append, List.cons.injEq, true_and] at e; rw [ih m' v' x y hq e]
    | esc d hd m' v' hq =>
      simp only [List.cons_append, List.cons.injEq, true_and] at e
      rw [e.1, ih m' v' x y hq e.2]
  | esc c hc m v _ ih =>
    intro b' v' x y h' e
    cases h' with
    | nil => simp at e
    | plain d hd m' v' hq => simp at e; exact absurd e.1 hd.2.1
    | newline m' v' hq =>
      simp only [List.cons_append, List.cons.injEq, true_and] at e
      rw [← e.1, ih m' v' x y hq e.2]
    | esc d hd m' v' hq =>
      simp only [List.cons_append, List.cons.injEq, true_and] at e
      rw [e.1, ih m' v' x y hq e.2]

theorem lit_extent (w rest m' : Str) (hw : IsLiteral w) (hm : m' <+: w ++ rest) (h : Long m') : m'.length ≤ w.length := by
  obtain ⟨b, v, hq, rfl⟩ := hw
  cases m' with
  | nil => simp
  | cons d m' =>
    obtain ⟨u, hu⟩ := hm
    simp only [List.cons_append, List.cons.injEq] at hu
    obtain ⟨rfl, hu⟩ := hu
    obtain ⟨b', v', hq', e'⟩ := long_quote m' h
    simp only [List.cons_append, List.cons.injEq, true_and] at e'
    subst e'
    have := quoted_extent b v hq b' v' rest u hq' (by simpa using hu)
    subst this
    simp

theorem first_lit (w : Str) (h : IsLiteral w) : First (α := α) w ⟨IsLiteral, LitItem⟩ := by
  have hhead : ∃ t, w = '"' :: t := by obtain ⟨b, v, _, rfl⟩ := h; exact ⟨_, rfl⟩
  obtain ⟨t, rfl⟩ := hhead
  refine first_of_append _ (punctRules ++ keyRules ++ [⟨IsWord, fun m l o => o = some (.tok (.id m) l)⟩, ⟨IsNumA, NumItem⟩, ⟨IsNumB, NumItem⟩]) (tailRules.drop 4) _ ?_ h ?_
  · rfl
  · intro r' hr' hacc
    rcases List.mem_append.1 hr' with hp | hp
    · rcases List.mem_append.1 hp with hp | hp
      · obtain ⟨c, hc, e⟩ := punctRules_acc r' hp _ hacc
        simp at e; rw [← e.1] at hc; revert hc; decide
      · obtain ⟨k, hk, e⟩ := keyRules_acc r' hp _ hacc
        have := keyword_isWord k hk
        rw [← e] at this
        exact (isWord_head _ _ this).ne_quote rfl
    · simp only [List.mem_cons, List.not_mem_nil, or_false] at hp
      rcases hp with rfl | rfl | rfl
      · exact (isWord_head _ _ hacc).ne_quote rfl
      · exact (isNumA_head _ _ hacc).ne_quote rfl
      · exact (isNumB_head _ _ hacc).ne_quote rfl

theorem quoted_count (b v : Str) (h : Quoted b v) : b.count '\n' = 0 := by
  rw [List.count_eq_zero]
  induction h with
  | nil => simp
  | plain c hc m v _ ih => simp [ih, Ne.symm hc.2.2]
  | newline m v _ ih => simp [ih]
  | esc c hc m v _ ih => rcases hc with rfl | rfl | rfl | rfl <;> simp [ih]

theorem lit_count (w : Str) (h : IsLiteral w) : w.count '\n' = 0 := by
  obtain ⟨b, v, hq, rfl⟩ := h
  simp [List.count_append, quoted_count b v hq]

theorem isLiteral_ne (w : Str) (h : IsLiteral w) : w ≠ [] := by
  obtain ⟨b, v, _, rfl⟩ := h; simp

theorem lex_lit (b v : Str) (h : Quoted b v) (hn : '\x00' ∉ b) (rest : Str) (l : Nat) :
    (lexFrom ('"' :: b ++ ['"'] ++ rest) l : List (Item α)) = .tok (.str v) l :: lexFrom rest l := by
  have hlit : IsLiteral ('"' :: b ++ ['"']) := ⟨b, v, h, rfl⟩
  have hb : Best (α := α) ('"' :: b ++ ['"'] ++ rest) ('"' :: b ++ ['"']) _ :=
    best_of _ rest _ (isLiteral_ne _ hlit) (first_lit _ hlit) (fun m' hm' h' => lit_extent _ rest m' hlit hm' h')
  have := lexFrom_best ('"' :: b ++ ['"'] ++ rest) ('"' :: b ++ ['"']) _ hb l (some (.tok (.str v) l))
    (by
      rw [lit_count _ hlit]
      change LitItem _ _ _
      unfold LitItem
      rw [if_neg (by simp [hn])]
      exact ⟨b, v, h, rfl, rfl⟩) rest rfl
  rw [lit_count _ hlit] at this
  exact this

/-! ### blanks and comments -/

def IsWs (c : Char) : Prop := c = ' ' ∨ c = '\t' ∨ c = '\n' ∨ c = '\r'

theorem ws_not_long (c : Char) (hc : IsWs c) (m : Str) : ¬ Long (c :: m) := by
  intro h
  rcases long_other _ _ h with h | h | h | h
  · rcases hc with rfl | rfl | rfl | rfl <;> revert h <;> unfold Letter <;> decide
  · rcases hc with rfl | rfl | rfl | rfl <;> revert h <;> unfold NumHead Digit <;> decide
  · rcases hc with rfl | rfl | rfl | rfl <;> simp at h
  · rcases hc with rfl | rfl | rfl | rfl <;> simp at h

theorem ws_not_punct (c : Char) (hc : IsWs c) : c ∉ puncts := by
  rcases hc with rfl | rfl | rfl | rfl <;> decide

theorem first_ws (c : Char) (hc : IsWs c) : First (α := α) [c] ⟨IsBlankStr, fun _ _ o => o = none⟩ := by
  refine first_of_append _ (punctRules ++ keyRules ++ [⟨IsWord, fun m l o => o = some (.tok (.id m) l)⟩, ⟨IsNumA, NumItem⟩, ⟨IsNumB, NumItem⟩, ⟨IsLiteral, LitItem⟩]) (tailRules.drop 5) _ ?_ ?_ ?_
  · rfl
  · rcases hc with rfl | rfl | rfl | rfl <;> simp [IsBlankStr]
  · intro r' hr' hacc
    rcases List.mem_append.1 hr' with hp | hp
    · rcases List.mem_append.1 hp with hp | hp
      · obtain ⟨d, hd, e⟩ := punctRules_acc r' hp _ hacc
        simp at e; rw [← e] at hd; exact ws_not_punct c hc hd
      · obtain ⟨k, hk, e⟩ := keyRules_acc r' hp _ hacc
        have := keyword_isWord k hk
        rw [← e] at this
        exact ws_not_long c hc [] (Or.inl this)
    · apply ws_not_long c hc []
      simp only [List.mem_cons, List.not_mem_nil, or_false] at hp
      rcases hp with rfl | rfl | rfl | rfl
      · exact Or.inl hacc
      · exact Or.inr (Or.inl hacc)
      · exact Or.inr (Or.inr (Or.inl hacc))
      · exact Or.inr (Or.inr (Or.inr (Or.inl hacc)))

theorem lex_ws (c : Char) (hc : IsWs c) (rest : Str) (l : Nat) :
    (lexFrom (c :: rest) l : List (Item α)) = lexFrom rest (l + [c].count '\n') := by
  have hb : Best (α := α) ([c] ++ rest) [c] ⟨IsBlankStr, fun _ _ o => o = none⟩ := by
    refine best_of [c] rest _ (by simp) (first_ws c hc) ?_
    intro m' hm' hl
    cases m' with
    | nil => simp
    | cons d m' =>
      obtain ⟨t, ht⟩ := hm'
      simp only [List.cons_append, List.nil_append, List.cons.injEq] at ht
      obtain ⟨rfl, _⟩ := ht
      exact absurd hl (ws_not_long _ hc _)
  exact lexFrom_best ([c] ++ rest) [c] _ hb l none rfl rest rfl

theorem first_comment (t : Str) (ht : '\n' ∉ t) : First (α := α) ('/' :: '/' :: t) ⟨IsComment, fun _ _ o => o = none⟩ := by
  refine first_of_append _ (punctRules ++ keyRules ++ [⟨IsWord, fun m l o => o = some (.tok (.id m) l)⟩, ⟨IsNumA, NumItem⟩, ⟨IsNumB, NumItem⟩, ⟨IsLiteral, LitItem⟩, ⟨IsBlankStr, fun _ _ o => o = none⟩]) (tailRules.drop 6) _ ?_ ⟨t, rfl, ht⟩ ?_
  · rfl
  · intro r' hr' hacc
    rcases List.mem_append.1 hr' with hp | hp
    · rcases List.mem_append.1 hp with hp | hp
      · obtain ⟨d, hd, e⟩ := punctRules_acc r' hp _ hacc
        simp at e
      · obtain ⟨k, hk, e⟩ := keyRules_acc r' hp _ hacc
        have := keyword_isWord k hk
        rw [← e] at this
        exact (isWord_head _ _ this).ne_slash rfl
    · simp only [List.mem_cons, List.not_mem_nil, or_false] at hp
      rcases hp with rfl | rfl | rfl | rfl | rfl
      · exact (isWord_head _ _ hacc).ne_slash rfl
      · exact (isNumA_head _ _ hacc).ne_slash rfl
      · exact (isNumB_head _ _ hacc).ne_slash rfl
      · have := isLiteral_head _ _ hacc; simp at this
      · rcases hacc with h | h | h | h <;> simp at h

theorem lex_comment (t : Str) (ht : '\n' ∉ t) (rest : Str) (hr : ∀ c ∈ rest.head?, c = '\n') (l : Nat) :
    (lexFrom ('/' :: '/' :: t ++ rest) l : List (Item α)) = lexFrom rest l := by
  have hb : Best (α := α) ('/' :: '/' :: t ++ rest) ('/' :: '/' :: t) ⟨IsComment, fun _ _ o => o = none⟩ := by
    refine best_of _ rest _ (by simp) (first_comment t ht) ?_
    intro m' hm' hl
    cases m' with
    | nil => simp
    | cons d m' =>
      obtain ⟨u, hu⟩ := hm'
      simp only [List.cons_append, List.cons.injEq] at hu
      obtain ⟨rfl, hu⟩ := hu
      obtain ⟨t', e, ht'⟩ := long_slash m' hl
      simp only [List.cons.injEq, true_and] at e
      subst e
      simp only [List.cons_append, List.cons.injEq, true_and] at hu
      by_contra hlt
      simp only [List.length_cons] at hlt
      have hlen : t.length < t'.length := by omega
      have h1 := congrArg (fun z => z[t.length]?) hu
      simp only [List.getElem?_append_left hlen, List.getElem?_append_right (Nat.le_refl _), Nat.sub_self] at h1
      rw [List.getElem?_eq_getElem hlen] at h1
      have h2 : rest.head? = some (t'[t.length]) := by rw [List.head?_eq_getElem?]; exact h1.symm
      have h3 := hr _ (by rw [h2]; rfl)
      exact ht' (by rw [← h3]; exact List.getElem_mem hlen)
  have hc : ('/' :: '/' :: t).count '\n' = 0 := by rw [List.count_eq_zero]; simp [ht]
  have := lexFrom_best _ _ _ hb l none rfl rest rfl
  rw [hc] at this
  exact this

end S2P
