import Verif.Lemmas.Print

set_option linter.unusedSectionVars false
set_option linter.unusedVariables false
set_option linter.unusedSimpArgs false

namespace S2P
variable {α : Type} [FP α]

/-! ## Where tokens come from -/

theorem scans_source (s : Str) (l : Nat) (its : Items α) (h : Scans s l its) (it : Item α) (hi : it ∈ its) :
    ∃ m r l', m <:+: s ∧ r ∈ lexRules (α := α) ∧ r.accepts m ∧ r.makes m l' (some it) := by
  induction h with
  | nil => cases hi
  | skip m rest line r its hb hmk _ ih =>
    obtain ⟨m', r', l', ⟨a, b, hab⟩, h⟩ := ih hi
    exact ⟨m', r', l', ⟨m ++ a, b, by rw [← hab]; simp⟩, h⟩
  | emit m rest line r it' its hb hmk _ ih =>
    rcases List.mem_cons.1 hi with rfl | hi
    · obtain ⟨_, _, _, i, hi', hacc, _⟩ := hb
      exact ⟨m, r, _, ⟨[], rest, by simp⟩, List.mem_of_getElem? hi', hacc, hmk⟩
    · obtain ⟨m', r', l', ⟨a, b, hab⟩, h⟩ := ih hi
      exact ⟨m', r', l', ⟨m ++ a, b, by rw [← hab]; simp⟩, h⟩

theorem quoteLoop_noNul (n : Nat) : ∀ (buf : Str) (t f : Nat), buf.length = n → '\x00' ∉ buf → '\x00' ∉ (quoteLoop buf t f n).1 := by
  intro buf t f
  induction hk : n - f using Nat.strong_induction_on generalizing buf t f with
  | _ k ih =>
    intro hl hn
    unfold quoteLoop
    have hset : ∀ c, c ≠ '\x00' → '\x00' ∉ buf.set t c := by
      intro c hc hm
      rcases List.mem_or_eq_of_mem_set hm with h | h
      · exact hn h
      · exact hc h.symm
    have hget : ∀ i, i < n → buf.getD i '\x00' ≠ '\x00' := by
      intro i hi he
      rw [List.getD_eq_getElem?_getD, List.getElem?_eq_getElem (by omega)] at he
      exact hn (he ▸ List.getElem_mem _)
    by_cases h1 : f < n - 1
    · rw [if_pos h1]
      dsimp only
      by_cases h2 : buf.getD f '\x00' ≠ '\\'
      · rw [if_pos h2]
        exact ih (n - (f + 1)) (by omega) _ _ _ rfl (by simpa using hl) (hset _ (hget f (by omega)))
      · rw [if_neg h2]
        by_cases h3 : buf.getD (f + 1) '\x00' = 'n'
        · rw [if_pos h3]
          exact ih (n - (f + 2)) (by omega) _ _ _ rfl (by simpa using hl) (hset _ (by decide))
        · rw [if_neg h3]
          exact ih (n - (f + 2)) (by omega) _ _ _ rfl (by simpa using hl) (hset _ (hget (f + 1) (by omega)))
    · rw [if_neg h1]; exact hn

theorem newQuote_noNul (s : Str) (h : '\x00' ∉ s) : '\x00' ∉ newQuote s :=
  fun hm => quoteLoop_noNul s.length s 0 1 rfl h (List.mem_of_mem_take hm)

theorem quoted_noNul (b v : Str) (h : Quoted b v) (hb : '\x00' ∉ b) : '\x00' ∉ v := by
  induction h with
  | nil => simp
  | plain c h m v _ ih => simp only [List.mem_cons, not_or] at hb ⊢; exact ⟨hb.1, ih hb.2⟩
  | newline m v _ ih => simp only [List.mem_cons, not_or] at hb ⊢; exact ⟨by decide, ih hb.2.2⟩
  | esc c h m v _ ih => simp only [List.mem_cons, not_or] at hb ⊢; exact ⟨hb.2.1, ih hb.2.2⟩

/-- what an item of a script can be -/
theorem item_source (s : Str) (it : Item α) (hi : it ∈ (lex s : Items α)) :
    (∃ c l, it = .tok (.p c) l) ∨ (∃ k ∈ keywords (α := α), ∃ l, it = .tok k.2 l) ∨ (∃ w l, it = .tok (.id w) l) ∨
    (∃ x l w, it = .tok (.num x) l ∧ w <:+: s ∧ SpellNum x w) ∨
    (it = .boom ∧ ∃ w q, w <:+: s ∧ (IsNumA w ∨ IsNumB w) ∧ Denotes w q ∧ (FP.ofDec32 q : Option α) = none) ∨
    (∃ v l, it = .tok (.str v) l ∧ '\x00' ∉ v) ∨ it = .bad := by
  obtain ⟨m, r, l, hm, hr, hacc, hmk⟩ := scans_source s 1 _ ((C02_scan (α := α) s (lex s)).2 rfl) it hi
  rw [lexRules_eq, List.mem_append, List.mem_append] at hr
  have hnum : (IsNumA m ∨ IsNumB m) → NumItem m l (some it) →
      (∃ x l w, it = .tok (.num x) l ∧ w <:+: s ∧ SpellNum x w) ∨
      (it = .boom ∧ ∃ w q, w <:+: s ∧ (IsNumA w ∨ IsNumB w) ∧ Denotes w q ∧ (FP.ofDec32 q : Option α) = none) := by
    rintro hn ⟨q, hq, h⟩
    cases hd : (FP.ofDec32 q : Option α) with
    | none => rw [hd] at h; simp at h; exact Or.inr ⟨h, m, q, hm, hn, hq, hd⟩
    | some x => rw [hd] at h; simp at h; exact Or.inl ⟨x, l, m, h, hm, hn, q, hq, hd⟩
  rcases hr with (hr | hr) | hr
  · obtain ⟨c, hc, rfl⟩ := List.mem_map.1 hr
    have : some it = some (Item.tok (Tok.p c) l) := hmk
    simp at this
    exact Or.inl ⟨c, l, this⟩
  · obtain ⟨k, hk, rfl⟩ := List.mem_map.1 hr
    have : some it = some (Item.tok k.2 l) := hmk
    simp at this
    exact Or.inr (Or.inl ⟨k, hk, l, this⟩)
  · unfold tailRules at hr
    simp only [List.mem_cons, List.not_mem_nil, or_false] at hr
    rcases hr with rfl | rfl | rfl | rfl | rfl | rfl | rfl
    · have : some it = some (Item.tok (Tok.id m) l) := hmk
      simp at this
      exact Or.inr (Or.inr (Or.inl ⟨m, l, this⟩))
    · rcases hnum (Or.inl hacc) hmk with h | h
      · exact Or.inr (Or.inr (Or.inr (Or.inl h)))
      · exact Or.inr (Or.inr (Or.inr (Or.inr (Or.inl h))))
    · rcases hnum (Or.inr hacc) hmk with h | h
      · exact Or.inr (Or.inr (Or.inr (Or.inl h)))
      · exact Or.inr (Or.inr (Or.inr (Or.inr (Or.inl h))))
    · have h' : LitItem m _ _ := hmk
      refine Or.inr (Or.inr (Or.inr (Or.inr (Or.inr (Or.inl ?_)))))
      unfold LitItem at h'
      split_ifs at h' with hz
      · simp at h'
        refine ⟨_, l, h', newQuote_noNul _ ?_⟩
        intro hm'
        have := List.mem_takeWhile_imp hm'
        simp at this
      · obtain ⟨b, v, hb, rfl, h'⟩ := h'
        simp at h'
        refine ⟨v, l, h', quoted_noNul b v hb ?_⟩
        intro hm'; apply hz; simp [hm']
    · exact absurd (show some _ = none from hmk) (by simp)
    · exact absurd (show some _ = none from hmk) (by simp)
    · have : some it = some Item.bad := hmk
      simp at this
      exact Or.inr (Or.inr (Or.inr (Or.inr (Or.inr (Or.inr this)))))

/-! ## Parsed documents can be written -/

variable (num : α → Str) (int : Int → Str)

def ItemOk : Item α → Prop
  | .tok (.id w) _ => IsName w
  | .tok (.num x) _ => SpellNum x (num x) ∧ ∀ i, FP.toInt x = some i → SpellInt α i (int i)
  | .tok (.str v) _ => '\x00' ∉ v
  | _ => True

theorem gLocation_good (w : Items α) (v : V2 α) (h : GLocation w v) (hw : ∀ i ∈ w, ItemOk num int i) :
    SpellNum v.x (num v.x) ∧ SpellNum v.y (num v.y) := by
  cases h
  simp only [List.mem_cons, List.not_mem_nil, or_false, forall_eq_or_imp, forall_eq, ItemOk] at hw
  exact ⟨hw.2.1.1, hw.2.2.2.1.1⟩

theorem gPoint_good (w : Items α) (v : Pt α) (h : GPoint w v) (hw : ∀ i ∈ w, ItemOk num int i) : v.Good num := by
  induction h with
  | val =>
    simp only [List.mem_cons, List.not_mem_nil, or_false, forall_eq_or_imp, forall_eq, ItemOk] at hw
    exact ⟨hw.2.1.1, hw.2.2.2.1.1, hw.2.2.2.2.2.1.1⟩
  | func n l l2 l4 w q _ ih =>
    exact ⟨hw (.tok (.id n) l) (by simp), ih (fun i hi => hw i (by simp [hi]))⟩

theorem gString_good (w : Items α) (v : Str) (h : GString w v) (hw : ∀ i ∈ w, ItemOk num int i) : '\x00' ∉ v := by
  induction h with
  | one s l => exact hw (.tok (.str s) l) (by simp)
  | more w s t l _ ih =>
    have h1 := ih (fun i hi => hw i (by simp [hi]))
    have h2 : '\x00' ∉ t := hw (.tok (.str t) l) (by simp)
    simp [h1, h2]

theorem gArg_good (w : Items α) (m : Meta α) (h : GArg w m) (hw : ∀ i ∈ w, ItemOk num int i) : m.Good num int := by
  cases h with
  | str n l l2 w s hs =>
    exact ⟨Or.inl (hw (.tok (.id n) l) (by simp)), gString_good num int w s hs (fun i hi => hw i (by simp [hi]))⟩
  | pt n l l2 w q hs =>
    exact ⟨Or.inl (hw (.tok (.id n) l) (by simp)), gPoint_good num int w q hs (fun i hi => hw i (by simp [hi]))⟩
  | num n l l2 l3 a =>
    exact ⟨Or.inl (hw (.tok (.id n) l) (by simp)), (hw (.tok (.num a) l3) (by simp)).1⟩
  | loc n l l2 w v hs =>
    exact ⟨Or.inl (hw (.tok (.id n) l) (by simp)), gLocation_good num int w v hs (fun i hi => hw i (by simp [hi]))⟩
  | scale n l l2 l3 l4 l5 a b i j hi hj =>
    exact ⟨Or.inl (hw (.tok (.id n) l) (by simp)), (hw (.tok (.num a) l3) (by simp)).2 i hi, (hw (.tok (.num b) l5) (by simp)).2 j hj⟩
  | «at» l w v hs =>
    exact ⟨Or.inr ⟨rfl, v, rfl⟩, gLocation_good num int w v hs (fun i hi => hw i (by simp [hi]))⟩

theorem gTextParts_good (w : Items α) (ms : List (Meta α)) (h : GTextParts w ms) (hw : ∀ i ∈ w, ItemOk num int i) :
    ∀ m ∈ ms, m.Good num int := by
  induction h with
  | empty => simp
  | arg w a ms m l _ hg ih =>
    intro x hx
    rcases List.mem_append.1 hx with hx | hx
    · exact ih (fun i hi => hw i (by simp [hi])) x hx
    · simp at hx; subst hx; exact gArg_good num int a x hg (fun i hi => hw i (by simp [hi]))

theorem gDimParts_good (w : Items α) (ms : List (Meta α)) (h : GDimParts w ms) (hw : ∀ i ∈ w, ItemOk num int i) :
    ∀ m ∈ ms, m.Good num int := by
  induction h with
  | one a m hg => intro x hx; simp at hx; subst hx; exact gArg_good num int a x hg hw
  | more w a ms m l _ hg ih =>
    intro x hx
    rcases List.mem_append.1 hx with hx | hx
    · exact ih (fun i hi => hw i (by simp [hi])) x hx
    · simp at hx; subst hx; exact gArg_good num int a x hg (fun i hi => hw i (by simp [hi]))

theorem gDrawParts_good (w : Items α) (ms : List (Meta α)) (ds : List (DimN α)) (h : GDrawParts w ms ds) (hw : ∀ i ∈ w, ItemOk num int i) :
    (∀ m ∈ ms, m.Good num int) ∧ ∀ d ∈ ds, d.Good num int := by
  induction h with
  | empty => simp
  | arg w a ms ds m l _ hg ih =>
    have h1 := ih (fun i hi => hw i (by simp [hi]))
    refine ⟨fun x hx => ?_, h1.2⟩
    rcases List.mem_append.1 hx with hx | hx
    · exact h1.1 x hx
    · simp at hx; subst hx; exact gArg_good num int a x hg (fun i hi => hw i (by simp [hi]))
  | dim0 w ms ds t k l l3 l4 l5 _ _ ih =>
    have h1 := ih (fun i hi => hw i (by simp [hi]))
    refine ⟨h1.1, fun x hx => ?_⟩
    rcases List.mem_append.1 hx with hx | hx
    · exact h1.2 x hx
    · simp at hx; subst hx; intro m hm; simp at hm
  | dim w a ms args ds t k l l3 l5 l6 _ _ hd ih =>
    have h1 := ih (fun i hi => hw i (by simp [hi]))
    refine ⟨h1.1, fun x hx => ?_⟩
    rcases List.mem_append.1 hx with hx | hx
    · exact h1.2 x hx
    · simp at hx; subst hx; exact gDimParts_good num int a args hd (fun i hi => hw i (by simp [hi]))

theorem gPageParts_good (w : Items α) (ms : List (Meta α)) (ds : List (Drawable α)) (h : GPageParts w ms ds) (hw : ∀ i ∈ w, ItemOk num int i) :
    (∀ m ∈ ms, m.Good num int) ∧ ∀ d ∈ ds, d.Good num int := by
  induction h with
  | empty => simp
  | arg w a ms ds m l _ hg ih =>
    have h1 := ih (fun i hi => hw i (by simp [hi]))
    refine ⟨fun x hx => ?_, h1.2⟩
    rcases List.mem_append.1 hx with hx | hx
    · exact h1.1 x hx
    · simp at hx; subst hx; exact gArg_good num int a x hg (fun i hi => hw i (by simp [hi]))
  | draw w a ms ms' ds dims n l2 l l4 l6 _ hd ih =>
    have h1 := ih (fun i hi => hw i (by simp [hi]))
    refine ⟨h1.1, fun x hx => ?_⟩
    rcases List.mem_append.1 hx with hx | hx
    · exact h1.2 x hx
    · simp at hx; subst hx
      exact ⟨hw (.tok (.id n) l) (by simp), gDrawParts_good num int a ms' dims hd (fun i hi => hw i (by simp [hi]))⟩
  | text w a b ms ms' ds s l l3 l5 l6 l8 _ hs hb ih =>
    have h1 := ih (fun i hi => hw i (by simp [hi]))
    refine ⟨h1.1, fun x hx => ?_⟩
    rcases List.mem_append.1 hx with hx | hx
    · exact h1.2 x hx
    · simp at hx; subst hx
      exact ⟨gString_good num int a s hs (fun i hi => hw i (by simp [hi])), gTextParts_good num int b ms' hb (fun i hi => hw i (by simp [hi]))⟩

theorem gInput_good (w : Items α) (d : Doc α) (h : GInput w d) (hw : ∀ i ∈ w, ItemOk num int i) : d.Good num int := by
  induction h with
  | empty => exact ⟨by simp, by simp⟩
  | model w a ms ps m _ hg ih =>
    have h1 := ih (fun i hi => hw i (by simp [hi]))
    refine ⟨fun x hx => ?_, h1.2⟩
    rcases List.mem_append.1 hx with hx | hx
    · exact h1.1 x hx
    · simp at hx; subst hx
      cases hg with
      | mk n s l l2 l3 l4 l5 => exact ⟨hw (.tok (.id n) l2) (by simp), hw (.tok (.str s) l4) (by simp)⟩
  | page w a ms ps p _ hg ih =>
    have h1 := ih (fun i hi => hw i (by simp [hi]))
    refine ⟨h1.1, fun x hx => ?_⟩
    rcases List.mem_append.1 hx with hx | hx
    · exact h1.2 x hx
    · simp at hx; subst hx
      cases hg with
      | mk l l2 l4 w ms ds hp => exact gPageParts_good num int w ms ds hp (fun i hi => hw i (by simp [hi]))

/-! ## Why the process can stop -/

/-- a number is out of range, or a scale has a term out of range -/
def Err (its : Items α) (e : Abort) : Prop :=
  e = .exception ∧ .boom ∈ its ∨
  e = .ub ∧ ∃ a b l1 l2 l3, [.tok (.num a) l1, .tok (.p ':') l2, .tok (.num b) l3] <:+: its ∧ (FP.toInt a = none ∨ FP.toInt b = none)

theorem Err.mono (w its : Items α) (e : Abort) (h : Err its e) : Err (w ++ its) e := by
  rcases h with ⟨h1, h2⟩ | ⟨h1, a, b, l1, l2, l3, ⟨x, y, h⟩, h3⟩
  · exact Or.inl ⟨h1, by simp [h2]⟩
  · exact Or.inr ⟨h1, a, b, l1, l2, l3, ⟨w ++ x, y, by rw [← h]; simp⟩, h3⟩

theorem Err.cons (i : Item α) (its : Items α) (e : Abort) (h : Err its e) : Err (i :: its) e := Err.mono [i] its e h

theorem stop_err {β : Type} (its : Items α) (e : Abort) (h : stop (β := β) its = .error e) : Err its e := by
  unfold stop at h
  split at h
  · simp at h; exact Or.inl ⟨h.symm, by simp⟩
  · cases h

theorem expect_err {β : Type} (c : Char) (k : Items α → Except Abort (Option β)) (its : Items α) (e : Abort)
    (hk : ∀ r, k r = .error e → Err r e) (h : expect c k its = .error e) : Err its e := by
  unfold expect at h
  split at h
  · split_ifs at h with hc
    · exact Err.cons _ _ _ (hk _ h)
    · exact stop_err _ _ h
  · exact stop_err _ _ h

theorem number_err {β : Type} (k : α → Items α → Except Abort (Option β)) (its : Items α) (e : Abort)
    (hk : ∀ a r, k a r = .error e → Err r e) (h : number k its = .error e) : Err its e := by
  unfold number at h
  split at h
  · exact Err.cons _ _ _ (hk _ _ h)
  · exact stop_err _ _ h

theorem ident_err {β : Type} (k : Str → Nat → Items α → Except Abort (Option β)) (its : Items α) (e : Abort)
    (hk : ∀ n l r, k n l r = .error e → Err r e) (h : ident k its = .error e) : Err its e := by
  unfold ident at h
  split at h
  · exact Err.cons _ _ _ (hk _ _ _ h)
  · exact stop_err _ _ h

theorem strLit_err {β : Type} (k : Str → Items α → Except Abort (Option β)) (its : Items α) (e : Abort)
    (hk : ∀ n r, k n r = .error e → Err r e) (h : strLit k its = .error e) : Err its e := by
  unfold strLit at h
  split at h
  · exact Err.cons _ _ _ (hk _ _ h)
  · exact stop_err _ _ h

theorem andThen_err {β γ : Type} (its : Items α) (r : PRes β α) (k : β → Items α → Except Abort (Option γ)) (e : Abort)
    (hr : r = .error e → Err its e) (hs : ∀ v rest, r = .ok (some (v, rest)) → ∃ w, its = w ++ rest)
    (hk : ∀ v rest, k v rest = .error e → Err rest e) (h : andThen r k = .error e) : Err its e := by
  rcases r with e' | _ | ⟨v, rest⟩
  · apply hr; simpa [andThen] using h
  · simp [andThen] at h
  · obtain ⟨w, rfl⟩ := hs v rest rfl
    exact Err.mono _ _ _ (hk v rest h)

theorem done_err {β : Type} (v : β) (its : Items α) (e : Abort) (P : Prop) (h : done v its = .error e) : P := by cases h

theorem lookAhead_err {β : Type} (v : β) (its : Items α) (e : Abort) (h : lookAhead v its = .error e) : Err its e := by
  unfold lookAhead at h
  split at h
  · simp at h; exact Or.inl ⟨h.symm, by simp⟩
  · cases h

theorem parseLocation_err (its : Items α) (e : Abort) (h : parseLocation its = .error e) : Err its e :=
  number_err _ _ _ (fun a r h => expect_err _ _ _ _ (fun r h => number_err _ _ _ (fun b r h => expect_err _ _ _ _
    (fun r h => done_err _ _ _ _ h) h) h) h) h

theorem pointTail_err (l : Nat) (its : Items α) (e : Abort) (h : pointTail l its = .error e) : Err its e :=
  number_err _ _ _ (fun a r h => expect_err _ _ _ _ (fun r h => number_err _ _ _ (fun b r h => expect_err _ _ _ _
    (fun r h => number_err _ _ _ (fun c r h => expect_err _ _ _ _ (fun r h => done_err _ _ _ _ h) h) h) h) h) h) h

theorem parsePoint_err (k : Nat) : ∀ (its : Items α) (e : Abort), its.length ≤ k → parsePoint its = .error e → Err its e := by
  induction k with
  | zero =>
    intro its e hk h
    have : its = [] := List.length_eq_zero_iff.1 (by omega)
    subst this
    simp [parsePoint, stop] at h
  | succ k ih =>
    intro its e hk h
    unfold parsePoint at h
    split at h
    · split_ifs at h with hc
      · exact Err.cons _ _ _ (pointTail_err _ _ _ h)
      · exact stop_err _ _ h
    · split_ifs at h with hc
      · rename_i its
        refine Err.cons _ _ _ (Err.cons _ _ _ ?_)
        exact andThen_err its _ _ e (fun h => ih _ _ (by simp at hk; omega) h)
          (fun v rest h => (parsePoint_sound _ _ _ _ (Nat.le_refl _) h).imp fun w h => h.1)
          (fun v rest h => expect_err _ _ _ _ (fun r h => done_err _ _ _ _ h) h) h
      · exact Err.cons _ _ _ (stop_err _ _ h)
    · exact Err.cons _ _ _ (stop_err _ _ h)
    · exact stop_err _ _ h

theorem parseStrs_suffix (its : Items α) : ∀ acc, ∃ w, its = w ++ (parseStrs acc its).2 := by
  induction its with
  | nil => intro acc; exact ⟨[], rfl⟩
  | cons i its ih =>
    intro acc
    rcases i with ⟨t, l⟩ | _ | _
    · cases t with
      | str s =>
        obtain ⟨w, h⟩ := ih (acc ++ s)
        refine ⟨.tok (.str s) l :: w, ?_⟩
        simp only [parseStrs, List.cons_append]; rw [← h]
      | _ => exact ⟨[], rfl⟩
    · exact ⟨[], rfl⟩
    · exact ⟨[], rfl⟩

theorem valNum_err (a : α) (l : Nat) (its : Items α) (e : Abort) (h : valNum a its = .error e) : Err (.tok (.num a) l :: its) e := by
  unfold valNum at h
  split at h
  · split_ifs at h with hc
    · subst hc
      unfold number at h
      split at h
      · rename_i l' _ b l'' its
        unfold mkScale at h
        split at h
        · cases h
        · rename_i hno
          simp at h
          refine Or.inr ⟨h.symm, a, b, l, l', l'', ⟨[], its, by simp⟩, ?_⟩
          cases ha : (FP.toInt a) with
          | none => exact Or.inl rfl
          | some i =>
            cases hb : (FP.toInt b) with
            | none => exact Or.inr rfl
            | some j => exact absurd hb (hno i j ha)
      · exact Err.cons _ _ _ (Err.cons _ _ _ (stop_err _ _ h))
  · exact Err.cons _ _ _ (lookAhead_err _ _ _ h)

theorem valPair_err (l : Nat) (a b : α) (its : Items α) (e : Abort) (h : valPair l a b its = .error e) : Err its e := by
  unfold valPair at h
  split at h
  · split_ifs at h with h1 h2
    · exact done_err _ _ _ _ h
    · exact Err.cons _ _ _ (number_err _ _ _ (fun b r h => expect_err _ _ _ _ (fun r h => done_err _ _ _ _ h) h) h)
    · exact stop_err _ _ h
  · exact stop_err _ _ h

theorem parseVal_err (its : Items α) (e : Abort) (h : parseVal its = .error e) : Err its e := by
  unfold parseVal at h
  split at h
  · rename_i s l its
    obtain ⟨w, hw⟩ := parseStrs_suffix its s
    have := lookAhead_err _ _ _ h
    refine Err.cons _ _ _ ?_
    rw [hw]; exact Err.mono _ _ _ this
  · exact valNum_err _ _ _ _ h
  · split_ifs at h with hc
    · exact Err.cons _ _ _ (number_err _ _ _ (fun a r h => expect_err _ _ _ _ (fun r h => number_err _ _ _ (fun b r h => valPair_err _ _ _ _ _ h) h) h) h)
    · exact stop_err _ _ h
  · exact andThen_err _ _ _ e (fun h => parsePoint_err _ _ _ (Nat.le_refl _) h)
      (fun v rest h => (parsePoint_sound _ _ _ _ (Nat.le_refl _) h).imp fun w h => h.1)
      (fun v rest h => done_err _ _ _ _ h) h
  · exact stop_err _ _ h

theorem parseVal_suffix (its : Items α) (v : MetaVal α) (rest : Items α) (h : parseVal its = .ok (some (v, rest))) : ∃ w, its = w ++ rest := by
  obtain ⟨w, h1, h2⟩ := parseVal_sound ['x'] 0 0 its v rest h
  cases h2 with
  | str n l l2 w s hs => simp at h1; exact ⟨w, h1.2⟩
  | pt n l l2 w q hs => simp at h1; exact ⟨w, h1.2⟩
  | num n l l2 l3 a => simp at h1; exact ⟨[.tok (.num a) l3], by simpa using h1.2⟩
  | loc n l l2 w v hs => simp at h1; exact ⟨w, h1.2⟩
  | scale n l l2 l3 l4 l5 a b i j hi hj => simp at h1; exact ⟨[.tok (.num a) l3, .tok (.p ':') l4, .tok (.num b) l5], by simpa using h1.2⟩

theorem parseArg_err (its : Items α) (e : Abort) (h : parseArg its = .error e) : Err its e := by
  unfold parseArg at h
  split at h
  · refine Err.cons _ _ _ (expect_err _ _ _ _ (fun r h => ?_) h)
    exact andThen_err r _ _ e (parseVal_err r e) (fun v rest h => parseVal_suffix r v rest h) (fun v rest h => done_err _ _ _ _ h) h
  · split_ifs at h with hc
    · refine Err.cons _ _ _ (expect_err _ _ _ _ (fun r h => ?_) h)
      refine andThen_err r _ _ e (parseLocation_err r e) (fun v rest h => ?_) (fun v rest h => done_err _ _ _ _ h) h
      obtain ⟨w, h1, h2⟩ := parseLocation_sound 0 r v rest h
      cases h2; simp at h1
      exact ⟨[_, _, _, _], h1.2⟩
    · exact stop_err _ _ h
  · exact stop_err _ _ h

theorem parseArg_suffix (its : Items α) (m : Meta α) (rest : Items α) (h : parseArg its = .ok (some (m, rest))) : ∃ w, its = w ++ rest :=
  (parseArg_sound its m rest h).imp fun w h => h.1

theorem parseArgs_err (fuel : Nat) : ∀ (acc : List (Meta α)) (its : Items α) (e : Abort), parseArgs fuel acc its = .error e → Err its e := by
  induction fuel with
  | zero => intro acc its e h; cases h
  | succ fuel ih =>
    intro acc its e h
    simp only [parseArgs] at h
    split_ifs at h
    · exact andThen_err its _ _ e (parseArg_err its e) (parseArg_suffix its)
        (fun v rest h => expect_err _ _ _ _ (fun r h => ih _ _ _ h) h) h
    · exact done_err _ _ _ _ h

theorem parseMore_err (fuel : Nat) : ∀ (acc : List (Meta α)) (its : Items α) (e : Abort), parseMore fuel acc its = .error e → Err its e := by
  induction fuel with
  | zero => intro acc its e h; cases h
  | succ fuel ih =>
    intro acc its e h
    simp only [parseMore] at h
    split at h
    · split_ifs at h
      · refine Err.cons _ _ _ ?_
        exact andThen_err _ _ _ e (parseArg_err _ e) (parseArg_suffix _) (fun v rest h => ih _ _ _ h) h
      · exact done_err _ _ _ _ h
    · exact done_err _ _ _ _ h

theorem parseArgs_suffix (fuel : Nat) (acc : List (Meta α)) (its : Items α) (ms : List (Meta α)) (rest : Items α)
    (h : parseArgs fuel acc its = .ok (some (ms, rest))) : ∃ w, its = w ++ rest := by
  induction fuel generalizing acc its with
  | zero => cases h
  | succ fuel ih =>
    simp only [parseArgs] at h
    split_ifs at h
    · obtain ⟨m, r, h1, h2⟩ := andThen_ok _ _ _ h
      obtain ⟨l, r', rfl, h3⟩ := expect_ok _ _ _ _ h2
      obtain ⟨a, rfl⟩ := parseArg_suffix _ _ _ h1
      obtain ⟨w, rfl⟩ := ih _ _ h3
      exact ⟨a ++ [.tok (.p ';') l] ++ w, by simp⟩
    · have := done_ok _ _ _ h
      simp only [Prod.mk.injEq] at this
      exact ⟨[], this.2.symm⟩

theorem parseMore_suffix (fuel : Nat) (acc : List (Meta α)) (its : Items α) (ms : List (Meta α)) (rest : Items α)
    (h : parseMore fuel acc its = .ok (some (ms, rest))) : ∃ w, its = w ++ rest := by
  induction fuel generalizing acc its with
  | zero => cases h
  | succ fuel ih =>
    simp only [parseMore] at h
    split at h
    · split_ifs at h with hc
      · obtain ⟨m, r, h1, h2⟩ := andThen_ok _ _ _ h
        obtain ⟨a, rfl⟩ := parseArg_suffix _ _ _ h1
        obtain ⟨w, rfl⟩ := ih _ _ h2
        exact ⟨_ :: (a ++ w), by rw [List.cons_append, List.append_assoc]⟩
      · have := done_ok _ _ _ h
        simp only [Prod.mk.injEq] at this
        exact ⟨[], this.2.symm⟩
    · have := done_ok _ _ _ h
      simp only [Prod.mk.injEq] at this
      exact ⟨[], this.2.symm⟩

theorem parseDim_err (k : DimKind) (l : Nat) (its : Items α) (e : Abort) (h : parseDim k l its = .error e) : Err its e := by
  refine expect_err _ _ _ _ (fun r h => ?_) h
  split_ifs at h
  · refine andThen_err r _ _ e (parseArg_err r e) (parseArg_suffix r) (fun v rest h => ?_) h
    exact andThen_err rest _ _ e (parseMore_err _ _ rest e) (parseMore_suffix _ _ rest) (fun v rest h => expect_err _ _ _ _
      (fun r h => expect_err _ _ _ _ (fun r h => done_err _ _ _ _ h) h) h) h
  · exact expect_err _ _ _ _ (fun r h => expect_err _ _ _ _ (fun r h => done_err _ _ _ _ h) h) h

theorem parseDim_suffix (k : DimKind) (l : Nat) (its : Items α) (d : DimN α) (rest : Items α) (h : parseDim k l its = .ok (some (d, rest))) :
    ∃ w, its = w ++ rest := by
  obtain ⟨l3, r, rfl, h1⟩ := expect_ok _ _ _ _ h
  split_ifs at h1
  · obtain ⟨m, r1, h2, h3⟩ := andThen_ok _ _ _ h1
    obtain ⟨args, r2, h4, h5⟩ := andThen_ok _ _ _ h3
    obtain ⟨l5, r3, rfl, h6⟩ := expect_ok _ _ _ _ h5
    obtain ⟨l6, r4, rfl, h7⟩ := expect_ok _ _ _ _ h6
    have := done_ok _ _ _ h7
    simp only [Prod.mk.injEq] at this
    obtain ⟨_, rfl⟩ := this
    obtain ⟨a, rfl⟩ := parseArg_suffix _ _ _ h2
    obtain ⟨b, rfl⟩ := parseMore_suffix _ _ _ _ _ h4
    exact ⟨.tok (.p '(') l3 :: (a ++ b ++ [.tok (.p ')') l5, .tok (.p ';') l6]), by simp⟩
  · obtain ⟨l5, r3, rfl, h6⟩ := expect_ok _ _ _ _ h1
    obtain ⟨l6, r4, rfl, h7⟩ := expect_ok _ _ _ _ h6
    have := done_ok _ _ _ h7
    simp only [Prod.mk.injEq] at this
    obtain ⟨_, rfl⟩ := this
    exact ⟨[_, _, _], rfl⟩

theorem parseDrawParts_err (fuel : Nat) : ∀ (ms : List (Meta α)) (ds : List (DimN α)) (its : Items α) (e : Abort),
    parseDrawParts fuel ms ds its = .error e → Err its e := by
  induction fuel with
  | zero => intro ms ds its e h; cases h
  | succ fuel ih =>
    intro ms ds its e h
    simp only [parseDrawParts] at h
    split_ifs at h
    · exact andThen_err its _ _ e (parseArg_err its e) (parseArg_suffix its)
        (fun v rest h => expect_err _ _ _ _ (fun r h => ih _ _ _ _ h) h) h
    · split at h
      · split at h
        · refine Err.cons _ _ _ ?_
          exact andThen_err _ _ _ e (parseDim_err _ _ _ e) (parseDim_suffix _ _ _) (fun v rest h => ih _ _ _ _ h) h
        · exact done_err _ _ _ _ h
      · exact done_err _ _ _ _ h

theorem parseDrawParts_suffix (fuel : Nat) (ms : List (Meta α)) (ds : List (DimN α)) (its : Items α) (r : List (Meta α) × List (DimN α)) (rest : Items α)
    (h : parseDrawParts fuel ms ds its = .ok (some (r, rest))) : ∃ w, its = w ++ rest := by
  induction fuel generalizing ms ds its with
  | zero => cases h
  | succ fuel ih =>
    simp only [parseDrawParts] at h
    split_ifs at h
    · obtain ⟨m, r, h1, h2⟩ := andThen_ok _ _ _ h
      obtain ⟨l, r', rfl, h3⟩ := expect_ok _ _ _ _ h2
      obtain ⟨a, rfl⟩ := parseArg_suffix _ _ _ h1
      obtain ⟨w, rfl⟩ := ih _ _ _ h3
      exact ⟨a ++ [.tok (.p ';') l] ++ w, by simp⟩
    · split at h
      · split at h
        · obtain ⟨d, r1, h1, h2⟩ := andThen_ok _ _ _ h
          obtain ⟨a, rfl⟩ := parseDim_suffix _ _ _ _ _ h1
          obtain ⟨w, rfl⟩ := ih _ _ _ h2
          exact ⟨_ :: (a ++ w), by rw [List.cons_append, List.append_assoc]⟩
        · have := done_ok _ _ _ h
          simp only [Prod.mk.injEq] at this
          exact ⟨[], this.2.symm⟩
      · have := done_ok _ _ _ h
        simp only [Prod.mk.injEq] at this
        exact ⟨[], this.2.symm⟩

theorem parseDraw_err (its : Items α) (e : Abort) (h : parseDraw its = .error e) : Err its e := by
  refine ident_err _ _ _ (fun n l r h => expect_err _ _ _ _ (fun r h => ?_) h) h
  exact andThen_err r _ _ e (parseDrawParts_err _ _ _ r e) (parseDrawParts_suffix _ _ _ r)
    (fun v rest h => expect_err _ _ _ _ (fun r h => done_err _ _ _ _ h) h) h

theorem parseDraw_suffix (its : Items α) (d : Drawable α) (rest : Items α) (h : parseDraw its = .ok (some (d, rest))) : ∃ w, its = w ++ rest := by
  obtain ⟨n, l3, r2, rfl, h3⟩ := ident_ok _ _ _ h
  obtain ⟨l4, r3, rfl, h4⟩ := expect_ok _ _ _ _ h3
  obtain ⟨q, r4, h5, h6⟩ := andThen_ok _ _ _ h4
  obtain ⟨l6, r5, rfl, h7⟩ := expect_ok _ _ _ _ h6
  have := done_ok _ _ _ h7
  simp only [Prod.mk.injEq] at this
  obtain ⟨_, rfl⟩ := this
  obtain ⟨a, rfl⟩ := parseDrawParts_suffix _ _ _ _ _ _ h5
  exact ⟨.tok (.id n) l3 :: .tok (.p '{') l4 :: (a ++ [.tok (.p '}') l6]), by simp⟩

theorem parseText_err (l : Nat) (its : Items α) (e : Abort) (h : parseText l its = .error e) : Err its e := by
  refine expect_err _ _ _ _ (fun r h => strLit_err _ _ _ (fun s its h => ?_) h) h
  obtain ⟨w, hw⟩ := parseStrs_suffix its s
  rw [hw]
  refine Err.mono _ _ _ (expect_err _ _ _ _ (fun r h => expect_err _ _ _ _ (fun r h => ?_) h) h)
  exact andThen_err r _ _ e (parseArgs_err _ _ r e) (parseArgs_suffix _ _ r) (fun v rest h => expect_err _ _ _ _ (fun r h => done_err _ _ _ _ h) h) h

theorem parseText_suffix (l : Nat) (its : Items α) (d : Drawable α) (rest : Items α) (h : parseText l its = .ok (some (d, rest))) : ∃ w, its = w ++ rest := by
  obtain ⟨l3, r2, rfl, h3⟩ := expect_ok _ _ _ _ h
  obtain ⟨s, ls, r3, rfl, h4⟩ := strLit_ok _ _ _ h3
  obtain ⟨l5, r4, hr4, h5⟩ := expect_ok _ _ _ _ h4
  obtain ⟨l6, r5, rfl, h6⟩ := expect_ok _ _ _ _ h5
  obtain ⟨args, r6, h7, h8⟩ := andThen_ok _ _ _ h6
  obtain ⟨l8, r7, rfl, h9⟩ := expect_ok _ _ _ _ h8
  have := done_ok _ _ _ h9
  simp only [Prod.mk.injEq] at this
  obtain ⟨_, rfl⟩ := this
  obtain ⟨sw, hsw⟩ := parseStrs_suffix r3 s
  obtain ⟨b, rfl⟩ := parseArgs_suffix _ _ _ _ _ h7
  rw [hr4] at hsw
  exact ⟨.tok (.p '[') l3 :: .tok (.str s) ls :: (sw ++ [.tok (.p ']') l5, .tok (.p '{') l6] ++ b ++ [.tok (.p '}') l8]), by rw [hsw]; simp⟩

theorem parsePageParts_err (fuel : Nat) : ∀ (ms : List (Meta α)) (ds : List (Drawable α)) (its : Items α) (e : Abort),
    parsePageParts fuel ms ds its = .error e → Err its e := by
  induction fuel with
  | zero => intro ms ds its e h; cases h
  | succ fuel ih =>
    intro ms ds its e h
    simp only [parsePageParts] at h
    split_ifs at h
    · exact andThen_err its _ _ e (parseArg_err its e) (parseArg_suffix its)
        (fun v rest h => expect_err _ _ _ _ (fun r h => ih _ _ _ _ h) h) h
    · split at h
      · exact Err.cons _ _ _ (andThen_err _ _ _ e (parseDraw_err _ e) (parseDraw_suffix _) (fun v rest h => ih _ _ _ _ h) h)
      · exact Err.cons _ _ _ (andThen_err _ _ _ e (parseText_err _ _ e) (parseText_suffix _ _) (fun v rest h => ih _ _ _ _ h) h)
      · exact done_err _ _ _ _ h

theorem parsePageParts_suffix (fuel : Nat) (ms : List (Meta α)) (ds : List (Drawable α)) (its : Items α) (r : List (Meta α) × List (Drawable α)) (rest : Items α)
    (h : parsePageParts fuel ms ds its = .ok (some (r, rest))) : ∃ w, its = w ++ rest := by
  induction fuel generalizing ms ds its with
  | zero => cases h
  | succ fuel ih =>
    simp only [parsePageParts] at h
    split_ifs at h
    · obtain ⟨m, r, h1, h2⟩ := andThen_ok _ _ _ h
      obtain ⟨l, r', rfl, h3⟩ := expect_ok _ _ _ _ h2
      obtain ⟨a, rfl⟩ := parseArg_suffix _ _ _ h1
      obtain ⟨w, rfl⟩ := ih _ _ _ h3
      exact ⟨a ++ [.tok (.p ';') l] ++ w, by simp⟩
    · split at h
      · obtain ⟨d, r1, h1, h2⟩ := andThen_ok _ _ _ h
        obtain ⟨a, rfl⟩ := parseDraw_suffix _ _ _ h1
        obtain ⟨w, rfl⟩ := ih _ _ _ h2
        exact ⟨_ :: (a ++ w), by rw [List.cons_append, List.append_assoc]⟩
      · obtain ⟨d, r1, h1, h2⟩ := andThen_ok _ _ _ h
        obtain ⟨a, rfl⟩ := parseText_suffix _ _ _ _ h1
        obtain ⟨w, rfl⟩ := ih _ _ _ h2
        exact ⟨_ :: (a ++ w), by rw [List.cons_append, List.append_assoc]⟩
      · have := done_ok _ _ _ h
        simp only [Prod.mk.injEq] at this
        exact ⟨[], this.2.symm⟩

theorem parseInput_err (fuel : Nat) : ∀ (ms : List ModelN) (ps : List (PageN α)) (its : Items α) (e : Abort),
    parseInput fuel ms ps its = .error e → Err its e := by
  induction fuel with
  | zero => intro ms ds its e h; cases h
  | succ fuel ih =>
    intro ms ps its e h
    simp only [parseInput] at h
    split at h
    · cases h
    · refine Err.cons _ _ _ (andThen_err _ _ _ e ?_ ?_ (fun v rest h => ih _ _ _ _ h) h)
      · intro h
        exact ident_err _ _ _ (fun n l r h => expect_err _ _ _ _ (fun r h => strLit_err _ _ _ (fun s r h => expect_err _ _ _ _ (fun r h => done_err _ _ _ _ h) h) h) h) h
      · intro v rest h1
        obtain ⟨n, l2, r1, rfl, k1⟩ := ident_ok _ _ _ h1
        obtain ⟨l3, r2, rfl, k2⟩ := expect_ok _ _ _ _ k1
        obtain ⟨s, l4, r3, rfl, k3⟩ := strLit_ok _ _ _ k2
        obtain ⟨l5, r4, rfl, k4⟩ := expect_ok _ _ _ _ k3
        have := done_ok _ _ _ k4
        simp only [Prod.mk.injEq] at this
        obtain ⟨_, rfl⟩ := this
        exact ⟨[_, _, _, _], rfl⟩
    · refine Err.cons _ _ _ (andThen_err _ _ _ e ?_ ?_ (fun v rest h => ih _ _ _ _ h) h)
      · intro h
        refine expect_err _ _ _ _ (fun r h => ?_) h
        exact andThen_err r _ _ e (parsePageParts_err _ _ _ r e) (parsePageParts_suffix _ _ _ r)
          (fun v rest h => expect_err _ _ _ _ (fun r h => done_err _ _ _ _ h) h) h
      · intro v rest h1
        obtain ⟨l2, r1, rfl, k1⟩ := expect_ok _ _ _ _ h1
        obtain ⟨q, r2, h3, h4⟩ := andThen_ok _ _ _ k1
        obtain ⟨l4, r3, rfl, h5⟩ := expect_ok _ _ _ _ h4
        have := done_ok _ _ _ h5
        simp only [Prod.mk.injEq] at this
        obtain ⟨_, rfl⟩ := this
        obtain ⟨a, rfl⟩ := parsePageParts_suffix _ _ _ _ _ _ h3
        exact ⟨.tok (.p '{') l2 :: (a ++ [.tok (.p '}') l4]), by simp⟩
    · exact stop_err _ _ h

theorem parseItems_err (its : Items α) (e : Abort) (h : parseItems its = .error e) : Err its e := parseInput_err _ _ _ _ _ h

end S2P
