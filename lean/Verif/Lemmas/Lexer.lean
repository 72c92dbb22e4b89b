import Verif.Spec.Lex
import Mathlib.Data.List.TakeWhile
import Mathlib.Data.List.Induction
import Mathlib.Data.List.Infix

set_option linter.unusedSectionVars false
set_option linter.unusedVariables false

namespace S2P

/-! ## Regular expressions -/

/-- language of an expression -/
inductive Matches : Re → Str → Prop
  | eps : Matches .eps []
  | cls {p : Char → Bool} {c : Char} : p c = true → Matches (.cls p) [c]
  | seq {a b : Re} {s t : Str} : Matches a s → Matches b t → Matches (.seq a b) (s ++ t)
  | altL {a b : Re} {s : Str} : Matches a s → Matches (.alt a b) s
  | altR {a b : Re} {s : Str} : Matches b s → Matches (.alt a b) s
  | starNil {a : Re} : Matches (.star a) []
  | starCons {a : Re} {s t : Str} : Matches a s → Matches (.star a) t → Matches (.star a) (s ++ t)

theorem matches_cls (p : Char → Bool) (s : Str) : Matches (.cls p) s ↔ ∃ c, s = [c] ∧ p c = true := by
  constructor
  · intro h; cases h; exact ⟨_, rfl, ‹_›⟩
  · rintro ⟨c, rfl, h⟩; exact .cls h

theorem matches_none (s : Str) : ¬ Matches Re.none s := by
  unfold Re.none; rw [matches_cls]; simp

theorem matches_eps (s : Str) : Matches .eps s ↔ s = [] := by
  constructor
  · intro h; cases h; rfl
  · rintro rfl; exact .eps

theorem matches_seq (a b : Re) (s : Str) : Matches (.seq a b) s ↔ ∃ t u, s = t ++ u ∧ Matches a t ∧ Matches b u := by
  constructor
  · intro h; cases h; exact ⟨_, _, rfl, ‹_›, ‹_›⟩
  · rintro ⟨t, u, rfl, h1, h2⟩; exact .seq h1 h2

theorem matches_alt (a b : Re) (s : Str) : Matches (.alt a b) s ↔ Matches a s ∨ Matches b s := by
  constructor
  · intro h; cases h
    · exact Or.inl ‹_›
    · exact Or.inr ‹_›
  · rintro (h | h)
    · exact .altL h
    · exact .altR h

theorem nullable_iff (r : Re) : r.nullable = true ↔ Matches r [] := by
  induction r with
  | eps => simp [Re.nullable, matches_eps]
  | cls p => simp [Re.nullable, matches_cls]
  | seq a b iha ihb =>
    simp only [Re.nullable, Bool.and_eq_true, iha, ihb, matches_seq]
    constructor
    · rintro ⟨h1, h2⟩; exact ⟨[], [], rfl, h1, h2⟩
    · rintro ⟨t, u, h, h1, h2⟩
      have := List.append_eq_nil_iff.1 h.symm
      rw [this.1] at h1; rw [this.2] at h2; exact ⟨h1, h2⟩
  | alt a b iha ihb => simp [Re.nullable, iha, ihb, matches_alt]
  | star a => simp only [Re.nullable, true_iff]; exact .starNil

/-- a non-empty match of a star starts with a non-empty match of its body -/
theorem star_cons (a : Re) (c : Char) (s : Str) (h : Matches (.star a) (c :: s)) :
    ∃ t u, s = t ++ u ∧ Matches a (c :: t) ∧ Matches (.star a) u := by
  generalize hr : Re.star a = r at h
  generalize hs : c :: s = w at h
  induction h with
  | eps => cases hr
  | cls => cases hr
  | seq => cases hr
  | altL => cases hr
  | altR => cases hr
  | starNil => cases hs
  | @starCons a' s' t' h1 h2 ih1 ih2 =>
    injection hr with hr; subst hr
    cases s' with
    | nil => exact ih2 rfl hs
    | cons d s'' =>
      simp only [List.cons_append, List.cons.injEq] at hs
      obtain ⟨rfl, rfl⟩ := hs
      exact ⟨s'', t', rfl, h1, h2⟩

theorem deriv_iff (r : Re) (c : Char) : ∀ s, Matches (r.deriv c) s ↔ Matches r (c :: s) := by
  induction r with
  | eps => intro s; simp [Re.deriv, matches_none, matches_eps]
  | cls p =>
    intro s
    simp only [Re.deriv]
    split_ifs with h
    · simp [matches_eps, matches_cls, h]
    · simp [matches_none, matches_cls]
      intro hc; simp_all
  | seq a b iha ihb =>
    intro s
    have key : Matches (.seq a b) (c :: s) ↔ (∃ t u, s = t ++ u ∧ Matches a (c :: t) ∧ Matches b u) ∨ (Matches a [] ∧ Matches b (c :: s)) := by
      rw [matches_seq]
      constructor
      · rintro ⟨t, u, h, h1, h2⟩
        cases t with
        | nil => simp at h; subst h; exact Or.inr ⟨h1, h2⟩
        | cons d t =>
          simp only [List.cons_append, List.cons.injEq] at h
          obtain ⟨rfl, rfl⟩ := h
          exact Or.inl ⟨t, u, rfl, h1, h2⟩
      · rintro (⟨t, u, rfl, h1, h2⟩ | ⟨h1, h2⟩)
        · exact ⟨c :: t, u, rfl, h1, h2⟩
        · exact ⟨[], c :: s, rfl, h1, h2⟩
    simp only [Re.deriv]
    split_ifs with hn
    · rw [matches_alt, matches_seq, ihb, key]
      simp only [iha, (nullable_iff a).1 hn, true_and]
    · rw [matches_seq, key]
      have : ¬ Matches a [] := fun h => hn ((nullable_iff a).2 h)
      simp only [iha, this, false_and, or_false]
  | alt a b iha ihb => intro s; simp [Re.deriv, matches_alt, iha, ihb]
  | star a iha =>
    intro s
    simp only [Re.deriv, matches_seq, iha]
    constructor
    · rintro ⟨t, u, rfl, h1, h2⟩
      exact .starCons h1 h2
    · exact star_cons a c s

/-! ## Longest match -/

theorem longestAux_spec (s : Str) : ∀ (r : Re) (n : Nat) (best : Option Nat),
    (∀ k, longestAux r s n best = some k → (∃ m t, s = m ++ t ∧ k = n + m.length ∧ Matches r m ∧ ∀ m', m' <+: s → Matches r m' → m'.length ≤ m.length) ∨
      (best = some k ∧ ∀ m', m' <+: s → ¬ Matches r m')) ∧
    (longestAux r s n best = none → best = none ∧ ∀ m', m' <+: s → ¬ Matches r m') := by
  induction s with
  | nil =>
    intro r n best
    unfold longestAux
    by_cases h : r.nullable = true
    · simp only [h, if_true]
      refine ⟨fun k hk => Or.inl ⟨[], [], rfl, ?_, (nullable_iff r).1 h, ?_⟩, fun hk => by cases hk⟩
      · injection hk with hk; simp [hk]
      · intro m' hm' _; rw [List.prefix_nil.1 hm']
    · have h' : ¬ Matches r [] := fun hm => h ((nullable_iff r).2 hm)
      simp only [h]
      refine ⟨fun k hk => Or.inr ⟨hk, ?_⟩, fun hk => ⟨hk, ?_⟩⟩
      · intro m' hm'; rw [List.prefix_nil.1 hm']; exact h'
      · intro m' hm'; rw [List.prefix_nil.1 hm']; exact h'
  | cons c s ih =>
    intro r n best
    obtain ⟨h1, h2⟩ := ih (r.deriv c) (n + 1) (if r.nullable then some n else best)
    have hstep : longestAux r (c :: s) n best = longestAux (r.deriv c) s (n + 1) (if r.nullable then some n else best) := by
      conv_lhs => unfold longestAux
    rw [hstep]
    have none' : (∀ m', m' <+: s → ¬ Matches (r.deriv c) m') → ∀ m', m' <+: c :: s → m' ≠ [] → ¬ Matches r m' := by
      intro h m' hm' hne
      cases m' with
      | nil => exact absurd rfl hne
      | cons d m'' =>
        obtain ⟨rfl, hp⟩ := List.cons_prefix_cons.1 hm'
        rw [← deriv_iff]; exact h m'' hp
    constructor
    · intro k hk
      rcases h1 k hk with ⟨m, t, rfl, hk', hm, hmax⟩ | ⟨hb, hno⟩
      · left
        refine ⟨c :: m, t, rfl, by simp [hk']; omega, (deriv_iff r c m).1 hm, ?_⟩
        intro m' hm' hmm
        cases m' with
        | nil => simp
        | cons d m'' =>
          obtain ⟨rfl, hp⟩ := List.cons_prefix_cons.1 hm'
          simpa using hmax m'' hp ((deriv_iff r d m'').2 hmm)
      · by_cases h : r.nullable = true
        · left
          rw [if_pos h] at hb
          injection hb with hb
          refine ⟨[], c :: s, rfl, by simp [hb], (nullable_iff r).1 h, ?_⟩
          intro m' hm' hmm
          by_cases hne : m' = []
          · simp [hne]
          · exact absurd hmm (none' hno m' hm' hne)
        · right
          rw [if_neg h] at hb
          refine ⟨hb, ?_⟩
          intro m' hm'
          by_cases hne : m' = []
          · rw [hne, ← nullable_iff]; exact h
          · exact none' hno m' hm' hne
    · intro hk
      obtain ⟨hb, hno⟩ := h2 hk
      by_cases h : r.nullable = true
      · rw [if_pos h] at hb; cases hb
      · rw [if_neg h] at hb
        refine ⟨hb, ?_⟩
        intro m' hm'
        by_cases hne : m' = []
        · rw [hne, ← nullable_iff]; exact h
        · exact none' hno m' hm' hne

theorem longest_some (r : Re) (s : Str) (n : Nat) (h : longest r s = some n) :
    ∃ m, m <+: s ∧ n = m.length ∧ Matches r m ∧ ∀ m', m' <+: s → Matches r m' → m'.length ≤ m.length := by
  rcases (longestAux_spec s r 0 none).1 n h with ⟨m, t, hs, hn, hm, hx⟩ | ⟨hb, _⟩
  · exact ⟨m, ⟨t, hs.symm⟩, by omega, hm, hx⟩
  · cases hb

theorem longest_none (r : Re) (s : Str) (h : longest r s = none) : ∀ m', m' <+: s → ¬ Matches r m' :=
  ((longestAux_spec s r 0 none).2 h).2

theorem prefix_eq_of_length {β : Type} {a b s : List β} (ha : a <+: s) (hb : b <+: s) (h : a.length = b.length) : a = b := by
  rw [List.prefix_iff_eq_take] at ha hb
  rw [ha, hb, h]

/-- the rules choose the longest match, and the first rule among those with that match -/
def Chosen (rs : List (Re × Act)) (s : Str) (n : Nat) (a : Act) : Prop :=
  ∃ m, m <+: s ∧ n = m.length ∧ (∀ p ∈ rs, ∀ m', m' <+: s → Matches p.1 m' → m'.length ≤ m.length) ∧
    ∃ (i : Nat) (r : Re), rs[i]? = some (r, a) ∧ Matches r m ∧ ∀ (j : Nat) (p : Re × Act), j < i → rs[j]? = some p → ¬ Matches p.1 m

theorem chosen_snoc (done : List (Re × Act)) (s : Str) (r : Re) (a : Act) :
    ∀ best, (∀ n b, best = some (n, b) → Chosen done s n b) → (best = none → ∀ p ∈ done, ∀ m', m' <+: s → ¬ Matches p.1 m') →
    (match longest r s, best with
     | none, _ => (∀ n b, best = some (n, b) → Chosen (done ++ [(r, a)]) s n b) ∧
        (best = none → ∀ p ∈ done ++ [(r, a)], ∀ m', m' <+: s → ¬ Matches p.1 m')
     | some n, none => Chosen (done ++ [(r, a)]) s n a
     | some n, some (m, b) => if m < n then Chosen (done ++ [(r, a)]) s n a else Chosen (done ++ [(r, a)]) s m b) := by
  intro best h1 h2
  have ext : ∀ n b, Chosen done s n b → (∀ m', m' <+: s → Matches r m' → m'.length ≤ n) → Chosen (done ++ [(r, a)]) s n b := by
    rintro n b ⟨m, hm, hn, hmax, i, q, hi, hq, hf⟩ hr
    refine ⟨m, hm, hn, ?_, i, q, ?_, hq, ?_⟩
    · intro p hp m' hm' hmm
      rcases List.mem_append.1 hp with hp | hp
      · exact hmax p hp m' hm' hmm
      · simp only [List.mem_singleton] at hp; subst hp
        rw [← hn]; exact hr m' hm' hmm
    · rw [List.getElem?_append_left (List.getElem?_eq_some_iff.1 hi).1]; exact hi
    · intro j p hj hp
      have hlt : j < done.length := by have := (List.getElem?_eq_some_iff.1 hi).1; omega
      rw [List.getElem?_append_left hlt] at hp
      exact hf j p hj hp
  cases hl : longest r s with
  | none =>
    have hno := longest_none r s hl
    simp only
    refine ⟨fun n b hb => ext n b (h1 n b hb) (fun m' hm' hmm => absurd hmm (hno m' hm')), ?_⟩
    intro hb p hp m' hm'
    rcases List.mem_append.1 hp with hp | hp
    · exact h2 hb p hp m' hm'
    · simp only [List.mem_singleton] at hp; subst hp; exact hno m' hm'
  | some n =>
    obtain ⟨m, hm, hn, hmm, hmax⟩ := longest_some r s n hl
    have new : (∀ p ∈ done, ∀ m', m' <+: s → Matches p.1 m' → m'.length < n) → Chosen (done ++ [(r, a)]) s n a := by
      intro hlt
      refine ⟨m, hm, hn, ?_, done.length, r, by simp, hmm, ?_⟩
      · intro p hp m' hm' hq
        rcases List.mem_append.1 hp with hp | hp
        · have := hlt p hp m' hm' hq; omega
        · simp only [List.mem_singleton] at hp; subst hp; exact hmax m' hm' hq
      · intro j p hj hp hq
        rw [List.getElem?_append_left hj] at hp
        have := hlt p (List.mem_of_getElem? hp) m hm hq
        omega
    cases best with
    | none =>
      simp only
      exact new (fun p hp m' hm' hq => absurd hq (h2 rfl p hp m' hm'))
    | some b =>
      obtain ⟨k, b⟩ := b
      simp only
      have hb := h1 k b rfl
      split_ifs with hlt
      · apply new
        intro p hp m' hm' hq
        obtain ⟨mb, _, hk, hmaxb, _⟩ := hb
        have := hmaxb p hp m' hm' hq
        omega
      · apply ext k b hb
        intro m' hm' hq
        have := hmax m' hm' hq
        omega

theorem pick_spec (s : Str) (rs : List (Re × Act)) : ∀ (done : List (Re × Act)) (best : Option (Nat × Act)),
    (∀ n b, best = some (n, b) → Chosen done s n b) → (best = none → ∀ p ∈ done, ∀ m', m' <+: s → ¬ Matches p.1 m') →
    (∀ n b, pick s rs best = some (n, b) → Chosen (done ++ rs) s n b) ∧
    (pick s rs best = none → ∀ p ∈ done ++ rs, ∀ m', m' <+: s → ¬ Matches p.1 m') := by
  induction rs with
  | nil =>
    intro done best h1 h2
    simp only [pick, List.append_nil]
    exact ⟨h1, h2⟩
  | cons p rs ih =>
    intro done best h1 h2
    obtain ⟨r, a⟩ := p
    have key := chosen_snoc done s r a best h1 h2
    have happ : done ++ (r, a) :: rs = (done ++ [(r, a)]) ++ rs := by simp
    rw [happ]
    unfold pick
    cases hl : longest r s with
    | none =>
      rw [hl] at key
      simp only at key ⊢
      exact ih _ best key.1 key.2
    | some n =>
      rw [hl] at key
      cases best with
      | none =>
        simp only at key ⊢
        refine ih _ _ ?_ (by intro h; cases h)
        intro k b hb
        simp only [Option.some.injEq, Prod.mk.injEq] at hb
        obtain ⟨rfl, rfl⟩ := hb
        exact key
      | some b =>
        obtain ⟨m, b⟩ := b
        simp only at key ⊢
        refine ih _ _ ?_ (by intro h; split_ifs at h)
        intro k b' hb
        split_ifs at key hb with hlt
        · simp only [Option.some.injEq, Prod.mk.injEq] at hb
          obtain ⟨rfl, rfl⟩ := hb
          exact key
        · simp only [Option.some.injEq, Prod.mk.injEq] at hb
          obtain ⟨rfl, rfl⟩ := hb
          exact key

/-! ## The rules of lexer.l -/

theorem matches_lit (l : Str) : ∀ s, Matches (Re.lit l) s ↔ s = l := by
  induction l with
  | nil => intro s; simp [Re.lit, matches_eps]
  | cons c l ih =>
    intro s
    cases l with
    | nil => simp [Re.lit, matches_cls]
    | cons d l =>
      simp only [Re.lit] at *
      rw [matches_seq]
      constructor
      · rintro ⟨t, u, rfl, h1, h2⟩
        rw [ih] at h2
        obtain ⟨x, rfl, hx⟩ := (matches_cls _ _).1 h1
        simp only [beq_iff_eq] at hx
        rw [h2, hx]; rfl
      · rintro rfl
        exact ⟨[c], d :: l, rfl, .cls (by simp), (ih _).2 rfl⟩

theorem matches_starCls (p : Char → Bool) (s : Str) : Matches (.star (.cls p)) s ↔ ∀ x ∈ s, p x = true := by
  induction s with
  | nil => simp; exact .starNil
  | cons c s ih =>
    constructor
    · intro h
      obtain ⟨t, u, rfl, h1, h2⟩ := star_cons _ _ _ h
      obtain ⟨x, hx, hp⟩ := (matches_cls _ _).1 h1
      simp only [List.cons.injEq] at hx
      obtain ⟨rfl, rfl⟩ := hx
      intro y hy
      rcases List.mem_cons.1 hy with rfl | hy
      · exact hp
      · exact (ih.1 h2) y (by simpa using hy)
    · intro h
      have h1 : Matches (.cls p) [c] := .cls (h c (by simp))
      have h2 := ih.2 (fun x hx => h x (by simp [hx]))
      exact .starCons h1 h2

theorem isDigit_digit (c : Char) : isDigit c = true ↔ Digit c := by simp [isDigit, Digit]
theorem isAlpha_iff (c : Char) : isAlpha_ c = true ↔ Letter c := by
  simp only [isAlpha_, Letter, Bool.or_eq_true, Bool.and_eq_true, decide_eq_true_eq, beq_iff_eq, or_assoc]
theorem isAlnum_iff (c : Char) : isAlnum_ c = true ↔ Letter c ∨ Digit c := by
  simp only [isAlnum_, Bool.or_eq_true, isAlpha_iff, isDigit_digit]

theorem matches_ident (m : Str) : Matches reIdent m ↔ IsWord m := by
  unfold reIdent IsWord
  rw [matches_seq]
  constructor
  · rintro ⟨t, u, rfl, h1, h2⟩
    obtain ⟨c, rfl, hc⟩ := (matches_cls _ _).1 h1
    rw [matches_starCls] at h2
    exact ⟨c, u, rfl, (isAlpha_iff c).1 hc, fun x hx => (isAlnum_iff x).1 (h2 x hx)⟩
  · rintro ⟨c, t, rfl, h1, h2⟩
    exact ⟨[c], t, rfl, .cls ((isAlpha_iff c).2 h1), (matches_starCls _ _).2 (fun x hx => (isAlnum_iff x).2 (h2 x hx))⟩

theorem matches_sign (m : Str) : Matches (.opt (.cls isSign)) m ↔ IsSignStr m := by
  unfold Re.opt IsSignStr
  rw [matches_alt, matches_cls, matches_eps]
  constructor
  · rintro (⟨c, rfl, h⟩ | rfl)
    · simp only [isSign, Bool.or_eq_true, beq_iff_eq] at h
      rcases h with rfl | rfl <;> simp
    · simp
  · rintro (rfl | rfl | rfl)
    · simp
    · left; exact ⟨'+', rfl, rfl⟩
    · left; exact ⟨'-', rfl, rfl⟩

theorem matches_digits (m : Str) : Matches (.star (.cls isDigit)) m ↔ Digits m := by
  rw [matches_starCls]
  simp only [isDigit_digit, Digits]

theorem matches_digits1 (m : Str) : Matches (.plus (.cls isDigit)) m ↔ Digits m ∧ m ≠ [] := by
  unfold Re.plus
  rw [matches_seq]
  constructor
  · rintro ⟨t, u, rfl, h1, h2⟩
    obtain ⟨c, rfl, hc⟩ := (matches_cls _ _).1 h1
    rw [matches_digits] at h2
    refine ⟨?_, by simp⟩
    intro x hx
    rcases List.mem_cons.1 hx with rfl | hx
    · exact (isDigit_digit _).1 hc
    · exact h2 x (by simpa using hx)
  · rintro ⟨h, hne⟩
    cases m with
    | nil => exact absurd rfl hne
    | cons c m =>
      exact ⟨[c], m, rfl, .cls ((isDigit_digit c).2 (h c (by simp))), (matches_digits m).2 (fun x hx => h x (by simp [hx]))⟩

theorem matches_num1 (m : Str) : Matches reNum1 m ↔ IsNumA m := by
  unfold reNum1 IsNumA
  rw [matches_seq]
  constructor
  · rintro ⟨sg, u, rfl, h1, h2⟩
    obtain ⟨ip, w, rfl, h3, h4⟩ := (matches_seq _ _ _).1 h2
    rw [matches_sign] at h1
    rw [matches_digits1] at h3
    refine ⟨sg, ip, h1, h3.1, h3.2, ?_⟩
    unfold Re.opt at h4
    rw [matches_alt, matches_eps, matches_seq] at h4
    rcases h4 with ⟨d, fp, rfl, h5, h6⟩ | rfl
    · obtain ⟨c, rfl, hc⟩ := (matches_cls _ _).1 h5
      simp only [beq_iff_eq] at hc; subst hc
      right; exact ⟨fp, (matches_digits fp).1 h6, by simp⟩
    · left; simp
  · rintro ⟨sg, ip, h1, h2, h3, h4⟩
    have key : ∀ w, Matches (.opt (.seq (.cls (· == '.')) (.star (.cls isDigit)))) w →
        ∃ t u, sg ++ ip ++ w = t ++ u ∧ Matches (.opt (.cls isSign)) t ∧
          Matches (.seq (.plus (.cls isDigit)) (.opt (.seq (.cls (· == '.')) (.star (.cls isDigit))))) u := by
      intro w hw
      exact ⟨sg, ip ++ w, by simp, (matches_sign sg).2 h1, .seq ((matches_digits1 ip).2 ⟨h2, h3⟩) hw⟩
    rcases h4 with rfl | ⟨fp, hfp, rfl⟩
    · have := key [] (.altR .eps); simpa using this
    · have := key ('.' :: fp) (.altL (.seq (s := ['.']) (.cls (by simp)) ((matches_digits fp).2 hfp)))
      simpa using this

theorem matches_num2 (m : Str) : Matches reNum2 m ↔ IsNumB m := by
  unfold reNum2 IsNumB
  rw [matches_seq]
  constructor
  · rintro ⟨sg, u, rfl, h1, h2⟩
    obtain ⟨d, fp, rfl, h3, h4⟩ := (matches_seq _ _ _).1 h2
    obtain ⟨c, rfl, hc⟩ := (matches_cls _ _).1 h3
    simp only [beq_iff_eq] at hc; subst hc
    rw [matches_digits1] at h4
    exact ⟨sg, fp, (matches_sign sg).1 h1, h4.1, h4.2, rfl⟩
  · rintro ⟨sg, fp, h1, h2, h3, rfl⟩
    exact ⟨sg, '.' :: fp, rfl, (matches_sign sg).2 h1, .seq (s := ['.']) (.cls (by simp)) ((matches_digits1 fp).2 ⟨h2, h3⟩)⟩

theorem quoted_append (b v b' v' : Str) (h : Quoted b v) (h' : Quoted b' v') : Quoted (b ++ b') (v ++ v') := by
  induction h with
  | nil => exact h'
  | plain c hc m v _ ih => exact .plain c hc _ _ ih
  | newline m v _ ih => exact .newline _ _ ih
  | esc c hc m v _ ih => exact .esc c hc _ _ ih

theorem matches_body (m : Str) : Matches (.star (.alt (.cls isPlain) (.seq (.cls (· == '\\')) (.cls isEsc)))) m ↔ ∃ v, Quoted m v := by
  constructor
  · intro h
    generalize hr : Re.star (.alt (.cls isPlain) (.seq (.cls (· == '\\')) (.cls isEsc))) = r at h
    induction h with
    | eps => cases hr
    | cls => cases hr
    | seq => cases hr
    | altL => cases hr
    | altR => cases hr
    | starNil => exact ⟨[], .nil⟩
    | @starCons a' s' t' h1 h2 ih1 ih2 =>
      injection hr with hr; subst hr
      obtain ⟨v, hv⟩ := ih2 rfl
      rw [matches_alt, matches_cls, matches_seq] at h1
      rcases h1 with ⟨c, rfl, hc⟩ | ⟨t, u, rfl, h3, h4⟩
      · simp only [isPlain, Bool.and_eq_true, bne_iff_ne, and_assoc] at hc
        exact ⟨c :: v, .plain c hc _ _ hv⟩
      · obtain ⟨b, rfl, hb⟩ := (matches_cls _ _).1 h3
        obtain ⟨e, rfl, he⟩ := (matches_cls _ _).1 h4
        simp only [beq_iff_eq] at hb; subst hb
        simp only [isEsc, Bool.or_eq_true, beq_iff_eq, or_assoc] at he
        by_cases hn : e = 'n'
        · subst hn; exact ⟨'\n' :: v, .newline _ _ hv⟩
        · refine ⟨e :: v, .esc e ?_ _ _ hv⟩
          tauto
  · rintro ⟨v, h⟩
    induction h with
    | nil => exact .starNil
    | plain c hc m v _ ih =>
      refine .starCons (s := [c]) (.altL (.cls ?_)) ih
      simp [isPlain, hc]
    | newline m v _ ih => exact .starCons (s := ['\\', 'n']) (.altR (.seq (s := ['\\']) (.cls (by simp)) (.cls (by decide)))) ih
    | esc c hc m v _ ih =>
      refine .starCons (s := ['\\', c]) (.altR (.seq (s := ['\\']) (.cls (by simp)) (.cls ?_))) ih
      simp only [isEsc, Bool.or_eq_true, beq_iff_eq, or_assoc]; tauto

theorem matches_str (m : Str) : Matches reStr m ↔ IsLiteral m := by
  unfold reStr IsLiteral
  rw [matches_seq]
  constructor
  · rintro ⟨t, u, rfl, h1, h2⟩
    obtain ⟨b, w, rfl, h3, h4⟩ := (matches_seq _ _ _).1 h2
    obtain ⟨c, rfl, hc⟩ := (matches_cls _ _).1 h1
    obtain ⟨d, rfl, hd⟩ := (matches_cls _ _).1 h4
    simp only [beq_iff_eq] at hc hd; subst hc; subst hd
    obtain ⟨v, hv⟩ := (matches_body b).1 h3
    exact ⟨b, v, hv, rfl⟩
  · rintro ⟨b, v, hv, rfl⟩
    exact ⟨['"'], b ++ ['"'], rfl, .cls (by simp), .seq ((matches_body b).2 ⟨v, hv⟩) (.cls (by simp))⟩

theorem matches_blank (m : Str) : Matches (.cls isBlank) m ↔ IsBlankStr m := by
  rw [matches_cls]
  unfold IsBlankStr
  simp only [isBlank, Bool.or_eq_true, beq_iff_eq, or_assoc]
  constructor
  · rintro ⟨c, rfl, rfl | rfl | rfl | rfl⟩ <;> simp
  · rintro (rfl | rfl | rfl | rfl) <;> exact ⟨_, rfl, by simp⟩

theorem matches_comment (m : Str) : Matches reComment m ↔ IsComment m := by
  unfold reComment IsComment
  rw [matches_seq]
  constructor
  · rintro ⟨t, u, rfl, h1, h2⟩
    obtain ⟨t', w, rfl, h3, h4⟩ := (matches_seq _ _ _).1 h2
    obtain ⟨c, rfl, hc⟩ := (matches_cls _ _).1 h1
    obtain ⟨d, rfl, hd⟩ := (matches_cls _ _).1 h3
    simp only [beq_iff_eq] at hc hd; subst hc; subst hd
    rw [matches_starCls] at h4
    refine ⟨w, rfl, ?_⟩
    intro hn
    have := h4 _ hn
    simp [notNl] at this
  · rintro ⟨t, rfl, h⟩
    refine ⟨['/'], '/' :: t, rfl, .cls (by simp), .seq (s := ['/']) (.cls (by simp)) ((matches_starCls _ _).2 ?_)⟩
    intro x hx
    simp only [notNl, bne_iff_ne]
    rintro rfl; exact h hx

theorem matches_other (m : Str) : Matches (.cls notNl) m ↔ ∃ c, m = [c] ∧ c ≠ '\n' := by
  rw [matches_cls]; simp [notNl]

end S2P
