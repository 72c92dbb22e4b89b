import Verif.Lemmas.Lexer
import Mathlib.Data.List.Forall2
import Mathlib.Tactic.Ring
import Mathlib.Tactic.FieldSimp
import Mathlib.Data.Rat.Cast.Order

set_option linter.unusedSectionVars false
set_option linter.unusedVariables false

namespace S2P

/-! ## Values of numerals -/

theorem digitsVal_foldl (s : Str) : ∀ n, s.foldl (fun n c => 10 * n + (c.toNat - 48)) n = n * 10 ^ s.length + natVal s := by
  induction s with
  | nil => intro n; simp [natVal]
  | cons c s ih => intro n; simp only [List.foldl_cons, ih, natVal, List.length_cons]; ring

theorem digitsVal_natVal (s : Str) : digitsVal s = natVal s := by
  unfold digitsVal; rw [digitsVal_foldl]; simp

theorem digitsVal_append (s t : Str) : digitsVal (s ++ t) = natVal s * 10 ^ t.length + natVal t := by
  unfold digitsVal; rw [List.foldl_append, digitsVal_foldl, digitsVal_foldl]; simp

/-- `numVal` of an unsigned numeral -/
def ufVal (s : Str) : Rat :=
  (digitsVal (s.takeWhile isDigit ++ (s.dropWhile isDigit).drop 1) : Rat) / (10 : Rat) ^ ((s.dropWhile isDigit).drop 1).length

theorem numVal_minus (t : Str) : numVal ('-' :: t) = - ufVal t := by
  unfold numVal ufVal
  simp

theorem numVal_plus (t : Str) : numVal ('+' :: t) = ufVal t := by
  unfold numVal ufVal
  simp

theorem numVal_bare (s : Str) (h : ∀ t, s ≠ '-' :: t ∧ s ≠ '+' :: t) : numVal s = ufVal s := by
  unfold numVal ufVal
  simp only
  split
  · rename_i t; exact absurd rfl (h t).1
  · rename_i t; exact absurd rfl (h t).2
  · simp

theorem takeWhile_digits (ip w : Str) (h : Digits ip) (hw : ∀ c ∈ w.head?, ¬ Digit c) :
    (ip ++ w).takeWhile isDigit = ip ∧ (ip ++ w).dropWhile isDigit = w := by
  induction ip with
  | nil =>
    cases w with
    | nil => simp
    | cons c w =>
      have : isDigit c = false := by
        have := hw c (by simp); rw [← isDigit_digit] at this; simpa using this
      simp [this]
  | cons c ip ih =>
    have hc : isDigit c = true := (isDigit_digit c).2 (h c (by simp))
    have := ih (fun x hx => h x (by simp [hx]))
    simp [hc, this.1, this.2]

theorem digit_dot : ¬ Digit '.' := by unfold Digit; decide
theorem digit_plus : ¬ Digit '+' := by unfold Digit; decide
theorem digit_minus : ¬ Digit '-' := by unfold Digit; decide

theorem ufVal_split (ip fp u : Str) (h1 : Digits ip) (h2 : Digits fp) (h : u = ip ∧ fp = [] ∨ u = ip ++ '.' :: fp) :
    ufVal u = (natVal ip : Rat) + (natVal fp : Rat) / (10 : Rat) ^ fp.length := by
  unfold ufVal
  rcases h with ⟨rfl, rfl⟩ | rfl
  · have := takeWhile_digits u [] h1 (by simp)
    simp only [List.append_nil] at this
    rw [this.1, this.2]
    simp [digitsVal_natVal, natVal]
  · have := takeWhile_digits ip ('.' :: fp) h1 (by simp [digit_dot])
    rw [this.1, this.2]
    simp only [List.drop_succ_cons, List.drop_zero, digitsVal_append]
    push_cast
    field_simp

/-- the numeral's value is what the code computes -/
theorem denotes_numVal (m : Str) (q : Rat) (h : Denotes m q) : q = numVal m := by
  obtain ⟨sg, ip, fp, hs, h1, h2, h3, rfl⟩ := h
  obtain ⟨u, hu, hm⟩ : ∃ u, (u = ip ∧ fp = [] ∨ u = ip ++ '.' :: fp) ∧ m = sg ++ u := by
    rcases h3 with ⟨rfl, rfl⟩ | rfl
    · exact ⟨ip, Or.inl ⟨rfl, rfl⟩, rfl⟩
    · exact ⟨ip ++ '.' :: fp, Or.inr rfl, by simp⟩
  have hv := ufVal_split ip fp u h1 h2 hu
  rw [← hv, hm]
  rcases hs with rfl | rfl | rfl
  · have hu' : ∀ t, u ≠ '-' :: t ∧ u ≠ '+' :: t := by
      intro t
      cases ip with
      | nil => rcases hu with ⟨rfl, rfl⟩ | rfl <;> simp
      | cons c ip =>
        have hc := h1 c (by simp)
        have : c ≠ '-' ∧ c ≠ '+' := ⟨fun h => digit_minus (h ▸ hc), fun h => digit_plus (h ▸ hc)⟩
        rcases hu with ⟨rfl, rfl⟩ | rfl <;> simp [this]
    rw [List.nil_append, numVal_bare u hu']
    simp
  · simp [numVal_plus]
  · simp [numVal_minus]

theorem isNumA_denotes (m : Str) (h : IsNumA m) : ∃ q, Denotes m q := by
  obtain ⟨sg, ip, hs, h1, _, rfl | ⟨fp, h2, rfl⟩⟩ := h
  · exact ⟨_, sg, ip, [], hs, h1, by simp [Digits], Or.inl ⟨rfl, rfl⟩, rfl⟩
  · exact ⟨_, sg, ip, fp, hs, h1, h2, Or.inr rfl, rfl⟩

theorem isNumB_denotes (m : Str) (h : IsNumB m) : ∃ q, Denotes m q := by
  obtain ⟨sg, fp, hs, h1, _, rfl⟩ := h
  exact ⟨_, sg, [], fp, hs, by simp [Digits], h1, Or.inr (by simp), rfl⟩

/-! ## String literals -/

theorem quoteLoop_quoted (b v : Str) (h : Quoted b v) : ∀ (buf : Str) (t f len : Nat), buf.drop f = b ++ ['"'] → len = buf.length →
    t < f → (quoteLoop buf t f len).1.take (quoteLoop buf t f len).2 = buf.take t ++ v := by
  induction h with
  | nil =>
    intro buf t f len hd hl ht
    have hlen := congrArg List.length hd
    simp only [List.length_drop, List.nil_append, List.length_singleton] at hlen
    unfold quoteLoop
    rw [if_neg (by omega)]
    simp
  | plain c hc m v _ ih =>
    intro buf t f len hd hl ht
    have hlen := congrArg List.length hd
    simp only [List.length_drop, List.length_append, List.length_cons, List.length_nil] at hlen
    have hget : buf[f]? = some c := by
      have := congrArg (·[0]?) hd
      simpa [List.getElem?_drop] using this
    have hgetD : buf.getD f '\x00' = c := by simp [List.getD, hget]
    unfold quoteLoop
    rw [if_pos (by omega)]
    simp only [hgetD, ne_eq, hc.2.1, not_false_eq_true, if_true]
    have htl : t < buf.length := by omega
    rw [ih (buf.set t c) (t + 1) (f + 1) len ?_ (by simp [hl]) (by omega)]
    · rw [List.take_add_one, List.take_set_of_le (by omega)]
      simp [htl]
    · rw [List.drop_set_of_lt (by omega)]
      have := congrArg (List.drop 1) hd
      simpa [List.drop_drop] using this
  | newline m v _ ih =>
    intro buf t f len hd hl ht
    have hlen := congrArg List.length hd
    simp only [List.length_drop, List.length_append, List.length_cons, List.length_nil] at hlen
    have hget : buf[f]? = some '\\' := by
      have := congrArg (·[0]?) hd
      simpa [List.getElem?_drop] using this
    have hget1 : buf[f + 1]? = some 'n' := by
      have := congrArg (·[1]?) hd
      simpa [List.getElem?_drop] using this
    have hgetD : buf.getD f '\x00' = '\\' := by simp [List.getD, hget]
    have hgetD1 : buf.getD (f + 1) '\x00' = 'n' := by simp [List.getD, hget1]
    unfold quoteLoop
    rw [if_pos (by omega)]
    simp only [hgetD, hgetD1, ne_eq, not_true_eq_false, if_false, if_true]
    have htl : t < buf.length := by omega
    rw [ih (buf.set t '\n') (t + 1) (f + 2) len ?_ (by simp [hl]) (by omega)]
    · rw [List.take_add_one, List.take_set_of_le (by omega)]
      simp [htl]
    · rw [List.drop_set_of_lt (by omega)]
      have := congrArg (List.drop 2) hd
      simpa [List.drop_drop] using this
  | esc c hc m v _ ih =>
    intro buf t f len hd hl ht
    have hlen := congrArg List.length hd
    simp only [List.length_drop, List.length_append, List.length_cons, List.length_nil] at hlen
    have hget : buf[f]? = some '\\' := by
      have := congrArg (·[0]?) hd
      simpa [List.getElem?_drop] using this
    have hget1 : buf[f + 1]? = some c := by
      have := congrArg (·[1]?) hd
      simpa [List.getElem?_drop] using this
    have hgetD : buf.getD f '\x00' = '\\' := by simp [List.getD, hget]
    have hgetD1 : buf.getD (f + 1) '\x00' = c := by simp [List.getD, hget1]
    have hcn : c ≠ 'n' := by rcases hc with rfl | rfl | rfl | rfl <;> decide
    unfold quoteLoop
    rw [if_pos (by omega)]
    simp only [hgetD, hgetD1, ne_eq, not_true_eq_false, if_false, hcn]
    have htl : t < buf.length := by omega
    rw [ih (buf.set t c) (t + 1) (f + 2) len ?_ (by simp [hl]) (by omega)]
    · rw [List.take_add_one, List.take_set_of_le (by omega)]
      simp [htl]
    · rw [List.drop_set_of_lt (by omega)]
      have := congrArg (List.drop 2) hd
      simpa [List.drop_drop] using this

theorem newQuote_quoted (b v : Str) (h : Quoted b v) : newQuote ('"' :: b ++ ['"']) = v := by
  have := quoteLoop_quoted b v h ('"' :: b ++ ['"']) 0 1 ('"' :: b ++ ['"']).length (by simp) rfl (by omega)
  unfold newQuote
  simpa using this

theorem takeWhile_noNul (m : Str) (h : '\x00' ∉ m) : m.takeWhile (· != '\x00') = m := by
  rw [List.takeWhile_eq_self_iff]
  intro x hx
  simp only [bne_iff_ne]
  rintro rfl; exact h hx

/-! ## The two rule tables agree -/

variable {α : Type} [FP α]

def RuleRel (p : Re × Act) (r : Rule α) : Prop :=
  (∀ m, Matches p.1 m ↔ r.accepts m) ∧ (∀ m l o, r.accepts m → (r.makes m l o ↔ o = actItem p.2 m l))

theorem numItem_iff (m : Str) (hd : ∃ q, Denotes m q) (l : Nat) (o : Option (Item α)) :
    NumItem m l o ↔ o = actItem .number m l := by
  obtain ⟨q, hq⟩ := hd
  unfold NumItem
  constructor
  · rintro ⟨q', hq', rfl⟩
    rw [denotes_numVal m q' hq']
    simp only [actItem]
    cases (FP.ofDec32 (numVal m) : Option α) <;> rfl
  · rintro rfl
    refine ⟨q, hq, ?_⟩
    rw [denotes_numVal m q hq]
    simp only [actItem]
    cases (FP.ofDec32 (numVal m) : Option α) <;> rfl

theorem litItem_iff (m : Str) (h : IsLiteral m) (l : Nat) (o : Option (Item α)) :
    LitItem m l o ↔ o = actItem .string m l := by
  unfold LitItem
  split_ifs with hn
  · rfl
  · obtain ⟨b, v, hq, hm⟩ := h
    simp only [actItem, takeWhile_noNul m hn]
    constructor
    · rintro ⟨b', v', hq', hm', rfl⟩
      rw [hm', newQuote_quoted b' v' hq']
    · rintro rfl
      refine ⟨b, v, hq, hm, ?_⟩
      rw [hm, newQuote_quoted b v hq]

theorem rules_rel : List.Forall₂ RuleRel rules (lexRules (α := α)) := by
  unfold rules lexRules
  simp only [puncts, keywords, List.map_cons, List.map_nil, List.cons_append, List.nil_append]
  have hp : ∀ c, RuleRel (α := α) (.lit [c], .punct c) ⟨(· = [c]), fun _ l o => o = some (.tok (.p c) l)⟩ := by
    intro c; exact ⟨fun m => matches_lit _ m, fun m l o _ => Iff.rfl⟩
  have hk : ∀ (w : Str) (a : Act) (t : Tok α), (∀ m l, actItem a m l = some (.tok t l)) →
      RuleRel (α := α) (.lit w, a) ⟨(· = w), fun _ l o => o = some (.tok t l)⟩ := by
    intro w a t h; exact ⟨fun m => matches_lit _ m, fun m l o _ => by rw [h]⟩
  refine .cons (hp _) (.cons (hp _) (.cons (hp _) (.cons (hp _) (.cons (hp _) (.cons (hp _) (.cons (hp _) (.cons (hp _)
    (.cons (hp _) (.cons (hp _) (.cons (hp _) ?_))))))))))
  refine .cons (hk _ _ _ fun _ _ => rfl) (.cons (hk _ _ _ fun _ _ => rfl) (.cons (hk _ _ _ fun _ _ => rfl)
    (.cons (hk _ _ _ fun _ _ => rfl) (.cons (hk _ _ _ fun _ _ => rfl) (.cons (hk _ _ _ fun _ _ => rfl)
    (.cons (hk _ _ _ fun _ _ => rfl) (.cons (hk _ _ _ fun _ _ => rfl) ?_)))))))
  refine .cons ⟨fun m => matches_ident m, fun m l o _ => Iff.rfl⟩ ?_
  refine .cons ⟨fun m => matches_num1 m, fun m l o h => numItem_iff m (isNumA_denotes m h) l o⟩ ?_
  refine .cons ⟨fun m => matches_num2 m, fun m l o h => numItem_iff m (isNumB_denotes m h) l o⟩ ?_
  refine .cons ⟨fun m => matches_str m, fun m l o h => litItem_iff m h l o⟩ ?_
  refine .cons ⟨fun m => matches_blank m, fun m l o _ => Iff.rfl⟩ ?_
  refine .cons ⟨fun m => matches_comment m, fun m l o _ => Iff.rfl⟩ ?_
  exact .cons ⟨fun m => matches_other m, fun m l o _ => Iff.rfl⟩ .nil

theorem forall₂_get {β γ : Type} {R : β → γ → Prop} {as : List β} {bs : List γ} (h : List.Forall₂ R as bs) :
    (∀ (i : Nat) (a : β), as[i]? = some a → ∃ b, bs[i]? = some b ∧ R a b) ∧
    (∀ (i : Nat) (b : γ), bs[i]? = some b → ∃ a, as[i]? = some a ∧ R a b) := by
  induction h with
  | nil => simp
  | cons hab h ih =>
    constructor
    · intro i a' hi
      cases i with
      | zero => simp at hi; subst hi; exact ⟨_, rfl, hab⟩
      | succ i => simpa using ih.1 i a' (by simpa using hi)
    · intro i a' hi
      cases i with
      | zero => simp at hi; subst hi; exact ⟨_, rfl, hab⟩
      | succ i => simpa using ih.2 i a' (by simpa using hi)

/-- Every non-empty text starts with something some rule accepts. -/
theorem pick_rules (c : Char) (t : Str) : ∃ n a, pick (c :: t) rules none = some (n + 1, a) ∧ Chosen rules (c :: t) (n + 1) a := by
  obtain ⟨h1, h2⟩ := pick_spec (c :: t) rules [] none (by intro n b h; cases h) (by intro _ p hp; cases hp)
  simp only [List.nil_append] at h1 h2
  have ex : ∃ p ∈ rules, Matches p.1 [c] := by
    by_cases hc : c = '\n'
    · subst hc
      exact ⟨(.cls isBlank, .skip), by simp [rules], .cls (by decide)⟩
    · exact ⟨(.cls notNl, .error), by simp [rules], .cls (by simp [notNl, hc])⟩
  obtain ⟨p, hp, hm⟩ := ex
  have hpre : [c] <+: c :: t := ⟨t, rfl⟩
  cases hk : pick (c :: t) rules none with
  | none => exact absurd hm (h2 hk p hp [c] hpre)
  | some na =>
    obtain ⟨n, a⟩ := na
    have hch := h1 n a hk
    obtain ⟨m, _, hn, hmax, _⟩ := hch
    have := hmax p hp [c] hpre hm
    simp at this
    cases n with
    | zero => omega
    | succ n => exact ⟨n, a, rfl, h1 _ _ hk⟩

theorem chosen_best (s : Str) (n : Nat) (a : Act) (h : Chosen rules s (n + 1) a) :
    ∃ r : Rule α, Best s (s.take (n + 1)) r ∧ ∀ l o, r.makes (s.take (n + 1)) l o ↔ o = actItem a (s.take (n + 1)) l := by
  obtain ⟨m, hm, hn, hmax, i, re, hi, hre, hf⟩ := h
  have hmt : s.take (n + 1) = m := by rw [hn]; exact (List.prefix_iff_eq_take.1 hm).symm
  rw [hmt]
  obtain ⟨R1, R2⟩ := forall₂_get (rules_rel (α := α))
  obtain ⟨r, hr, hrel⟩ := R1 i _ hi
  refine ⟨r, ⟨?_, hm, ?_, i, hr, (hrel.1 m).1 hre, ?_⟩, fun l o => hrel.2 m l o ((hrel.1 m).1 hre)⟩
  · intro h0; rw [h0] at hn; simp at hn
  · intro r' hr' m' hm' hacc
    obtain ⟨j, hj⟩ := List.getElem?_of_mem hr'
    obtain ⟨p, hp, hprel⟩ := R2 j _ hj
    exact hmax p (List.mem_of_getElem? hp) m' hm' ((hprel.1 m').2 hacc)
  · intro j r' hj hr' hacc
    obtain ⟨p, hp, hprel⟩ := R2 j _ hr'
    exact hf j p hj hp ((hprel.1 m).2 hacc)

theorem best_unique (s m m' : Str) (r r' : Rule α) (h : Best s m r) (h' : Best s m' r') : m = m' ∧ r = r' := by
  obtain ⟨_, hm, hmax, i, hi, hacc, hf⟩ := h
  obtain ⟨_, hm', hmax', i', hi', hacc', hf'⟩ := h'
  have e : m = m' := by
    have a := hmax r' (List.mem_of_getElem? hi') m' hm' hacc'
    have b := hmax' r (List.mem_of_getElem? hi) m hm hacc
    exact prefix_eq_of_length hm hm' (by omega)
  subst e
  refine ⟨rfl, ?_⟩
  have : i = i' := by
    rcases Nat.lt_trichotomy i i' with hlt | he | hlt
    · exact absurd hacc (hf' i r hlt hi)
    · exact he
    · exact absurd hacc' (hf i' r' hlt hi')
  subst this
  rw [hi] at hi'; exact Option.some.inj hi'

theorem lexFrom_cons (c : Char) (t : Str) (line : Nat) (n : Nat) (a : Act) (h : pick (c :: t) rules none = some (n + 1, a)) :
    (lexFrom (c :: t) line : List (Item α)) =
      match actItem a ((c :: t).take (n + 1)) (line + ((c :: t).take (n + 1)).count '\n') with
      | some i => i :: lexFrom ((c :: t).drop (n + 1)) (line + ((c :: t).take (n + 1)).count '\n')
      | none => lexFrom ((c :: t).drop (n + 1)) (line + ((c :: t).take (n + 1)).count '\n') := by
  conv_lhs => unfold lexFrom
  rw [h]
  simp only [newlines, List.drop_succ_cons]
  cases (actItem a (List.take (n + 1) (c :: t)) (line + List.count '\n' (List.take (n + 1) (c :: t))) : Option (Item α)) <;> rfl

/-- One step of the scanner, in terms of the specification. -/
theorem lexFrom_best (s m : Str) (r : Rule α) (h : Best s m r) (line : Nat) (o : Option (Item α)) (ho : r.makes m (line + m.count '\n') o)
    (rest : Str) (hs : s = m ++ rest) :
    (lexFrom s line : List (Item α)) = o.toList ++ lexFrom rest (line + m.count '\n') := by
  cases s with
  | nil =>
    have := h.1
    simp at hs
    exact absurd hs.1 this
  | cons c t =>
    obtain ⟨n, a, hp, hch⟩ := pick_rules c t
    obtain ⟨r', hb, hmk⟩ := chosen_best (α := α) _ n a hch
    obtain ⟨rfl, rfl⟩ := best_unique _ _ _ _ _ h hb
    have hdrop : (c :: t).drop (n + 1) = rest := by
      have h1 : (c :: t).take (n + 1) ++ (c :: t).drop (n + 1) = (c :: t).take (n + 1) ++ rest := by
        rw [List.take_append_drop]; exact hs
      exact List.append_cancel_left h1
    rw [lexFrom_cons c t line n a hp, hdrop]
    rw [hmk] at ho
    rw [← ho]
    cases o <;> rfl

theorem scans_lexFrom (k : Nat) : ∀ (s : Str) (line : Nat), s.length ≤ k → Scans (α := α) s line (lexFrom s line) := by
  induction k with
  | zero =>
    intro s line hk
    have : s = [] := List.length_eq_zero_iff.1 (by omega)
    subst this
    unfold lexFrom; exact .nil line
  | succ k ih =>
    intro s line hk
    cases s with
    | nil => unfold lexFrom; exact .nil line
    | cons c t =>
      obtain ⟨n, a, hp, hch⟩ := pick_rules c t
      obtain ⟨r, hb, hmk⟩ := chosen_best (α := α) _ n a hch
      obtain ⟨m, hm⟩ : ∃ m, m = (c :: t).take (n + 1) := ⟨_, rfl⟩
      obtain ⟨rest, hr⟩ : ∃ rest, rest = (c :: t).drop (n + 1) := ⟨_, rfl⟩
      have hs : c :: t = m ++ rest := by rw [hm, hr, List.take_append_drop]
      rw [← hm] at hb hmk
      have hlen : rest.length ≤ k := by
        rw [hr, List.length_drop]; simp at hk ⊢; omega
      have hrec := ih rest (line + m.count '\n') hlen
      cases ha : (actItem a m (line + m.count '\n') : Option (Item α)) with
      | none =>
        have hmake := (hmk (line + m.count '\n') none).2 ha.symm
        have := lexFrom_best (c :: t) m r hb line none hmake rest hs
        rw [this, hs]; rw [hs] at hb
        exact .skip m rest line r _ hb hmake hrec
      | some it =>
        have hmake := (hmk (line + m.count '\n') (some it)).2 ha.symm
        have := lexFrom_best (c :: t) m r hb line (some it) hmake rest hs
        rw [this, hs]; rw [hs] at hb
        exact .emit m rest line r it _ hb hmake hrec

theorem scans_unique (s : Str) (line : Nat) (its : List (Item α)) (h : Scans s line its) : its = lexFrom s line := by
  induction h with
  | nil line => unfold lexFrom; rfl
  | emit m rest line r it its hb hmk _ ih =>
    rw [lexFrom_best _ m r hb line _ hmk rest rfl, ih]; rfl
  | skip m rest line r its hb hmk _ ih =>
    rw [lexFrom_best _ m r hb line _ hmk rest rfl, ih]; rfl

end S2P
