import Verif.Lemmas.ParseErr

set_option linter.unusedSectionVars false

/-! # C03, C04, C06: the grammar, writing documents, aborts -/

namespace S2P
variable {α : Type} [FP α]

/-! ## C03 -/

/-- C03: a token sequence is accepted with document `d` exactly if the grammar derives it with `d`. -/
theorem C03_accepts (its : Items α) (d : Doc α) : parseItems its = .ok (some d) ↔ GInput its d := parseItems_iff its d

/-- C03, from the text: a script is accepted with document `d` exactly if its tokens derive `d`. -/
theorem C03_script (s : Str) (d : Doc α) : parse s = .ok (some d) ↔ ∃ its, Scans s 1 its ∧ GInput its d := by
  constructor
  · intro h
    exact ⟨lex s, (C02_scan s _).2 rfl, (parseItems_iff _ _).1 h⟩
  · rintro ⟨its, h1, h2⟩
    rw [(C02_scan s its).1 h1] at h2
    exact (parseItems_iff _ _).2 h2

/-- C03: the grammar gives a token sequence at most one document. -/
theorem C03_unique (its : Items α) (d d' : Doc α) (h : GInput its d) (h' : GInput its d') : d = d' := by
  have h1 := (parseItems_iff its d).2 h
  rw [(parseItems_iff its d').2 h'] at h1
  simpa using h1.symm

/-- C03: a token sequence the grammar does not derive is rejected, unless the process stops on an out-of-range number first. -/
theorem C03_rejects (its : Items α) (h : ∀ d, ¬ GInput its d) : parseItems its = .ok none ∨ ∃ e, parseItems its = .error e ∧ Err its e := by
  cases hp : (parseItems its : Except Abort (Option (Doc α))) with
  | error e => exact Or.inr ⟨e, rfl, parseItems_err its e hp⟩
  | ok o =>
    cases o with
    | none => exact Or.inl rfl
    | some d => exact absurd ((parseItems_iff its d).1 hp) (h d)

/-- non-vacuity: the productions, in small scripts -/
example : (parse c!"load m=\"a\";page{s=1:2;p=f([1,2,3]);}" : Except Abort (Option (Doc (Ext ℚ)))) =
    .ok (some ⟨[⟨c!"m", c!"a", 1⟩],
      [⟨[⟨c!"s", .scale 1 2, 1⟩, ⟨c!"p", .pt (.func c!"f" (.val ⟨.fin 1, .fin 2, .fin 3⟩ 1) 1), 1⟩], [], 1⟩]⟩) := by decide +kernel

example : (parse c!"page{draw\nm{@[1,2];dim(t=\"x\",u=2);rad();}}" : Except Abort (Option (Doc (Ext ℚ)))) =
    .ok (some ⟨[], [⟨[], [.draw c!"m" [⟨['@'], .loc ⟨.fin 1, .fin 2⟩, 2⟩]
      [⟨.dim, [⟨c!"t", .str c!"x", 2⟩, ⟨c!"u", .num (.fin 2), 2⟩], 2⟩, ⟨.rad, [], 2⟩] 2], 1⟩]⟩) := by decide +kernel

/-- and a rejected one -/
example : (parse c!"page{dim();}" : Except Abort (Option (Doc (Ext ℚ)))) = .ok none := by decide +kernel

/-! ## C04 -/

/-- C04: a document whose names are identifiers, whose numbers have a spelling and whose texts have no NUL, written as a script in
any layout, is read back unchanged up to line numbers. -/
theorem C04_read_back (num : α → Str) (int : Int → Str) (d : Doc α) (hd : d.Good num int) (s : Str) (hs : Layout (d.print num int) s) :
    (parse s).map (Option.map (Doc.noLine (α := α))) = .ok (some d.noLine) := by
  have h1 := layout_lex (α := α) _ s hs 1
  have h2 := parseItems_noLine (α := α) (lexFrom s 1)
  rw [h1] at h2
  have h3 : (parse s).map (Option.map (Doc.noLine (α := α))) = mapOut Doc.noLine (parseItems (lexFrom s 1)) := by
    unfold parse lex
    rcases (parseItems (lexFrom s 1) : Except Abort (Option (Doc α))) with e | _ | d <;> rfl
  rw [h3, ← h2]
  exact (parseItems_iff _ _).2 (doc_items num int d hd)

/-- C04: such a script exists, for instance with one space after every token. -/
theorem C04_writable (num : α → Str) (int : Int → Str) (d : Doc α) (hd : d.Good num int) :
    Layout (d.print num int) (spaced (d.print num int)) ∧
    (parse (spaced (d.print num int))).map (Option.map (Doc.noLine (α := α))) = .ok (some d.noLine) :=
  have h := layout_spaced _ (doc_tokens num int d hd)
  ⟨h, C04_read_back num int d hd _ h⟩

/-- C04: every document that comes out of a script can be written and read back. -/
theorem C04_parsed (s : Str) (d : Doc α) (h : parse s = .ok (some d)) : ∃ num int, d.Good num int := by
  classical
  let num : α → Str := fun x => if h : ∃ w, SpellNum x w then h.choose else []
  let int : Int → Str := fun i => if h : ∃ w, SpellInt α i w then h.choose else []
  have hnum : ∀ x w, SpellNum x w → SpellNum x (num x) := by
    intro x w hx
    have h : ∃ w, SpellNum x w := ⟨w, hx⟩
    show SpellNum x (if h : ∃ w, SpellNum x w then h.choose else [])
    rw [dif_pos h]
    exact h.choose_spec
  have hint : ∀ i w, SpellInt α i w → SpellInt α i (int i) := by
    intro i w hx
    have h : ∃ w, SpellInt α i w := ⟨w, hx⟩
    show SpellInt α i (if h : ∃ w, SpellInt α i w then h.choose else [])
    rw [dif_pos h]
    exact h.choose_spec
  refine ⟨num, int, gInput_good num int _ d ((parseItems_iff _ _).1 h) (fun it hi => ?_)⟩
  rcases item_source s it hi with ⟨c, l, rfl⟩ | ⟨k, hk, l, rfl⟩ | ⟨w, l, rfl⟩ | ⟨x, l, w, rfl, _, hw⟩ | ⟨rfl, _⟩ | ⟨v, l, rfl, hv⟩ | rfl
  · trivial
  · simp only [keywords, List.mem_cons, List.not_mem_nil, or_false] at hk
    rcases hk with rfl | rfl | rfl | rfl | rfl | rfl | rfl | rfl <;> trivial
  · obtain ⟨h1, h2⟩ := C02_identifier s w l hi
    refine ⟨h1, fun k hk he => ?_⟩
    have : k.1 ∈ (keywords (α := α)).map (·.1) := by
      rw [keywords_fst α Unit]; exact List.mem_map.2 ⟨k, hk, rfl⟩
    obtain ⟨k', hk', h'⟩ := List.mem_map.1 this
    exact h2 k' hk' (by rw [he, h'])
  · exact ⟨hnum x w hw, fun i hi => hint i w ⟨x, hw, hi⟩⟩
  · trivial
  · exact hv
  · trivial

/-- non-vacuity: a document with every kind of node meets the hypothesis of `C04_read_back` -/
example : ∃ (d : Doc (Ext ℚ)) (num : Ext ℚ → Str) (int : Int → Str), d.pages.length = 1 ∧ d.models.length = 1 ∧ d.Good num int := by
  obtain ⟨num, int, h⟩ := C04_parsed (α := Ext ℚ) c!"load m=\"a\";page{draw m{@[-1.5,2];dim(s=1:2,p=f([1,2,3]));}text[\"q\"]{}}"
    ⟨[⟨c!"m", c!"a", 1⟩], [⟨[], [.draw c!"m" [⟨['@'], .loc ⟨.fin (-3/2), .fin 2⟩, 1⟩]
      [⟨.dim, [⟨c!"s", .scale 1 2, 1⟩, ⟨c!"p", .pt (.func c!"f" (.val ⟨.fin 1, .fin 2, .fin 3⟩ 1) 1), 1⟩], 1⟩] 1,
      .text c!"q" [] 1], 1⟩]⟩ (by decide +kernel)
  exact ⟨_, num, int, rfl, rfl, h⟩

/-! ## C06 -/

/-- Arithmetic as in `Ext ℚ`, but decimal numerals outside the range of `float` do not convert, as with `std::stof`. -/
@[instance_reducible] def narrow : FP (Ext ℚ) :=
  { (inferInstance : FP (Ext ℚ)) with
    ofDec32 := fun q => if -(2 ^ 128) < q ∧ q < 2 ^ 128 then some (.fin q) else none }

/-- C06 is false: a number too large for `float` stops the process … -/
theorem C06_false_number : ∃ s : Str, @parse (Ext ℚ) narrow s = .error .exception :=
  ⟨c!"page{x=999999999999999999999999999999999999999;", by decide +kernel⟩

/-- … and a scale term outside the range of `int` is undefined behaviour. -/
theorem C06_false_scale : ∃ s : Str, (parse s : Except Abort (Option (Doc (Ext ℚ)))) = .error .ub :=
  ⟨c!"page{s=9999999999:1;", by decide +kernel⟩

/-- C06, the part that holds: parsing stops the process only if the script has a numeral that does not convert to `float` (an
exception), or a scale `a:b` with a term that does not convert to `int` (undefined).  Missing from the claim: those two cases. -/
theorem C06_abort_partial (s : Str) (e : Abort) (h : (parse s : Except Abort (Option (Doc α))) = .error e) :
    (e = .exception ∧ ∃ w q, w <:+: s ∧ (IsNumA w ∨ IsNumB w) ∧ Denotes w q ∧ (FP.ofDec32 q : Option α) = none) ∨
    (e = .ub ∧ ∃ (a b : α) (u v : Str), u <:+: s ∧ v <:+: s ∧ SpellNum a u ∧ SpellNum b v ∧ (FP.toInt a = none ∨ FP.toInt b = none)) := by
  rcases parseItems_err _ e h with ⟨h1, h2⟩ | ⟨h1, a, b, l1, l2, l3, h2, h3⟩
  · refine Or.inl ⟨h1, ?_⟩
    rcases item_source s _ h2 with ⟨c, l, h⟩ | ⟨k, hk, l, h⟩ | ⟨w, l, h⟩ | ⟨x, l, w, h, _⟩ | ⟨_, h⟩ | ⟨v, l, h, _⟩ | h
    · cases h
    · cases h
    · cases h
    · cases h
    · exact h
    · cases h
    · cases h
  · refine Or.inr ⟨h1, a, b, ?_⟩
    have src : ∀ (x : α) (l : Nat), Item.tok (.num x) l ∈ (lex s : Items α) → ∃ w, w <:+: s ∧ SpellNum x w := by
      intro x l hm
      rcases item_source s _ hm with ⟨c, l, h⟩ | ⟨k, hk, l, h⟩ | ⟨w, l, h⟩ | ⟨x, l, w, h, h'⟩ | ⟨h, _⟩ | ⟨v, l, h, _⟩ | h
      · cases h
      · simp only [keywords, List.mem_cons, List.not_mem_nil, or_false] at hk
        rcases hk with rfl | rfl | rfl | rfl | rfl | rfl | rfl | rfl <;> cases h
      · cases h
      · cases h; exact ⟨w, h'⟩
      · cases h
      · cases h
      · cases h
    obtain ⟨u, hu⟩ := src a l1 (h2.subset (by simp))
    obtain ⟨v, hv⟩ := src b l3 (h2.subset (by simp))
    exact ⟨u, v, hu.1, hv.1, hu.2, hv.2, h3⟩

/-- C06, in other words: when every numeral of the script converts to `float` and to `int`, parsing returns. -/
theorem C06_returns_partial (s : Str)
    (h32 : ∀ w q, w <:+: s → IsNumA w ∨ IsNumB w → Denotes w q → (FP.ofDec32 q : Option α) ≠ none)
    (hint : ∀ (x : α) w, w <:+: s → SpellNum x w → FP.toInt x ≠ none) :
    ∃ o, (parse s : Except Abort (Option (Doc α))) = .ok o := by
  cases hp : (parse s : Except Abort (Option (Doc α))) with
  | ok o => exact ⟨o, rfl⟩
  | error e =>
    exfalso
    rcases C06_abort_partial s e hp with ⟨_, w, q, h1, h2, h3, h4⟩ | ⟨_, a, b, u, v, h1, h2, h3, h4, h5 | h5⟩
    · exact h32 w q h1 h2 h3 h4
    · exact hint a u h1 h3 h5
    · exact hint b v h2 h4 h5

/-- all contiguous parts of a text -/
def parts (s : Str) : List Str := s.tails.flatMap List.inits

theorem mem_parts (w s : Str) (h : w <:+: s) : w ∈ parts s := by
  obtain ⟨a, b, rfl⟩ := h
  refine List.mem_flatMap.2 ⟨w ++ b, (List.mem_tails _ _).2 ⟨a, by simp⟩, (List.mem_inits _ _).2 ⟨b, rfl⟩⟩

/-- non-vacuity: a script with numbers that meets both hypotheses -/
example : (∀ w q, w <:+: c!"p{x=1:-25;}" → IsNumA w ∨ IsNumB w → Denotes w q → (FP.ofDec32 q : Option (Ext ℚ)) ≠ none) ∧
    (∀ (x : Ext ℚ) w, w <:+: c!"p{x=1:-25;}" → SpellNum x w → FP.toInt x ≠ none) := by
  refine ⟨fun w q _ _ _ h => (by cases h), fun x w hw hx => ?_⟩
  obtain ⟨_, q, hq, hx⟩ := hx
  have hx' : x = .fin q := by
    have : some (Ext.fin q) = some x := hx
    simpa using this.symm
  rw [hx', denotes_numVal w q hq]
  have : ∀ w ∈ parts c!"p{x=1:-25;}", FP.toInt (Ext.fin (numVal w)) ≠ none := by decide +kernel
  exact this w (mem_parts w _ hw)

end S2P
