import Verif.Model.Page

set_option linter.unusedSectionVars false
set_option linter.unusedVariables false
set_option linter.unusedSimpArgs false

namespace S2P
variable {α : Type} [FP α]

/-! ## The name map of a block -/

/-- the index a block uses for a name: the first property so named -/
def ixOf (ms : List (Meta α)) (n : Str) : Option Nat := ms.findIdx? (fun m => decide (m.name = n))

theorem seenInsert_find (k : Str) (i : Nat) (n : Str) : ∀ S : Seen, S.any (fun e => decide (e.1 = k)) = false →
    (seenInsert k i S).find? (fun e => decide (e.1 = n)) = if k = n then some (k, i) else S.find? (fun e => decide (e.1 = n))
  | [], _ => by
    unfold seenInsert
    by_cases h : k = n <;> simp [h]
  | e :: es, h => by
    simp only [List.any_cons, Bool.or_eq_false_iff, decide_eq_false_iff_not] at h
    unfold seenInsert
    split_ifs with h1 h2
    · subst h2; simp
    · simp [h2]
    · rename_i h2; subst h2
      rw [List.find?_cons_of_neg (by simpa using h.1), seenInsert_find k i k es h.2, if_pos rfl]
    · rename_i h2
      by_cases he : e.1 = n
      · simp [he]
      · rw [List.find?_cons_of_neg (by simpa using he), List.find?_cons_of_neg (by simpa using he), seenInsert_find k i n es h.2, if_neg h2]

theorem flattenFrom_find (blk n : Str) : ∀ (ms : List (Meta α)) (i : Nat) (S : Seen) (ds : List Diag) (ok : Bool),
    (flattenFrom blk i ms S ds ok).2.1.find? (fun e => decide (e.1 = n)) =
      (S.find? (fun e => decide (e.1 = n))).or ((ixOf ms n).map (fun k => (n, i + k)))
  | [], i, S, ds, ok => by simp [flattenFrom, ixOf]
  | m :: ms, i, S, ds, ok => by
    unfold flattenFrom
    have hix : ixOf (m :: ms) n = if m.name = n then some 0 else (ixOf ms n).map (· + 1) := by
      unfold ixOf
      rw [List.findIdx?_cons]
      by_cases h : m.name = n <;> simp [h]
    split_ifs with h
    · rw [flattenFrom_find, hix]
      by_cases hn : m.name = n
      · subst hn
        rw [List.any_eq_true] at h
        obtain ⟨e, he, h'⟩ := h
        obtain ⟨x, hx⟩ := Option.isSome_iff_exists.mp
          (List.find?_isSome (p := fun x : Str × Nat => decide (x.1 = m.name)) |>.mpr ⟨e, he, h'⟩)
        simp [hx]
      · rw [if_neg hn, Option.map_map]
        congr 2
        funext k
        simp; omega
    · have h' : S.any (fun e => decide (e.1 = m.name)) = false := by rw [← Bool.not_eq_true]; exact h
      rw [flattenFrom_find, seenInsert_find _ _ _ _ h', hix]
      by_cases hn : m.name = n
      · subst hn
        have : S.find? (fun e => decide (e.1 = m.name)) = none := by
          rw [List.find?_eq_none]
          intro e he
          rw [List.any_eq_false] at h'
          exact h' e he
        simp [this]
      · rw [if_neg hn, if_neg hn, Option.map_map]
        congr 2
        funext k
        simp; omega

/-- the names not yet taken: `S` holds what `ms` has, without the names `N` -/
def Rep (ms : List (Meta α)) (N : List Str) (S : Seen) : Prop :=
  ∀ n, S.find? (fun e => decide (e.1 = n)) = if n ∈ N then none else (ixOf ms n).map (fun k => (n, k))

theorem rep_flatten (blk : Str) (ms : List (Meta α)) : Rep ms [] (flatten blk ms).2.1 := by
  intro n
  unfold flatten
  rw [flattenFrom_find]
  simp

theorem find_filter_ne (S : Seen) (n k : Str) :
    (S.filter (fun x => decide (x.1 ≠ n))).find? (fun e => decide (e.1 = k)) = if k = n then none else S.find? (fun e => decide (e.1 = k)) := by
  rw [List.find?_filter]
  by_cases h : k = n
  · subst h
    rw [if_pos rfl, List.find?_eq_none]
    intro x _
    simp
  · rw [if_neg h]
    congr 1
    funext e
    by_cases he : e.1 = k
    · simp [he, h]
    · simp [he]

theorem rep_take {ms : List (Meta α)} {N : List Str} {S : Seen} (h : Rep ms N S) (n : Str) :
    (take n S).1 = (if n ∈ N then none else ixOf ms n) ∧ Rep ms (n :: N) (take n S).2 := by
  have hn := h n
  unfold take
  constructor
  · by_cases hN : n ∈ N
    · rw [if_pos hN] at hn; rw [hn, if_pos hN]
    · rw [if_neg hN] at hn
      rw [hn, if_neg hN]
      cases ixOf ms n <;> rfl
  · have key : ∀ (o : Option (Str × Nat)), S.find? (fun e => decide (e.1 = n)) = o →
        Rep ms (n :: N) (match o with | none => (none, S) | some e => (some e.2, S.filter (fun x => decide (x.1 ≠ n)))).2 := by
      intro o ho
      cases o with
      | none =>
        intro k
        rw [h k]
        by_cases hk : k = n
        · subst hk
          rw [ho] at hn
          simp only [List.mem_cons, true_or, if_true]
          exact hn.symm
        · simp [hk]
      | some e =>
        intro k
        show (S.filter _).find? _ = _
        rw [find_filter_ne]
        by_cases hk : k = n
        · simp [hk]
        · rw [if_neg hk, h k]; simp [hk]
    exact key _ rfl

theorem rep_nil {ms : List (Meta α)} {N : List Str} {S : Seen} (h : Rep ms N S) : S = [] ↔ ∀ m ∈ ms, m.name ∈ N := by
  constructor
  · intro hS m hm
    by_contra hN
    have := h m.name
    rw [hS, if_neg hN] at this
    simp only [List.find?_nil] at this
    have h2 : ixOf ms m.name = none := by
      cases hx : ixOf ms m.name with
      | none => rfl
      | some k => rw [hx] at this; cases this
    unfold ixOf at h2
    rw [List.findIdx?_eq_none_iff] at h2
    have := h2 m hm
    simp at this
  · intro hall
    by_contra hne
    obtain ⟨e, he⟩ := List.exists_mem_of_ne_nil S hne
    obtain ⟨x, hx⟩ := Option.isSome_iff_exists.mp (List.find?_isSome (p := fun x : Str × Nat => decide (x.1 = e.1)) |>.mpr ⟨e, he, by simp⟩)
    have h1 := h e.1
    rw [hx] at h1
    by_cases hN : e.1 ∈ N
    · rw [if_pos hN] at h1; cases h1
    · rw [if_neg hN] at h1
      cases hi : ixOf ms e.1 with
      | none => rw [hi] at h1; cases h1
      | some k =>
        unfold ixOf at hi
        rw [List.findIdx?_eq_some_iff_getElem] at hi
        obtain ⟨hk, hp, _⟩ := hi
        apply hN
        have hp' : ms[k].name = e.1 := by simpa using hp
        rw [← hp']
        exact hall _ (List.getElem_mem hk)

theorem ixOf_some {ms : List (Meta α)} {n : Str} {i : Nat} (h : ixOf ms n = some i) : ∃ m, ms[i]? = some m ∧ m.name = n ∧
    ms.find? (fun m => decide (m.name = n)) = some m := by
  unfold ixOf at h
  have h' := h
  rw [List.findIdx?_eq_some_iff_getElem] at h
  obtain ⟨hk, hp, hlt⟩ := h
  refine ⟨ms[i], List.getElem?_eq_getElem hk, by simpa using hp, ?_⟩
  rw [List.find?_eq_some_iff_getElem]
  refine ⟨hp, i, hk, rfl, ?_⟩
  intro j hj
  have := hlt j hj
  simpa using this

theorem ixOf_none {ms : List (Meta α)} {n : Str} : ixOf ms n = none ↔ ∀ m ∈ ms, m.name ≠ n := by
  unfold ixOf
  rw [List.findIdx?_eq_none_iff]
  simp

theorem ixOf_isSome {ms : List (Meta α)} {n : Str} : (ixOf ms n).isSome = true ↔ ∃ m ∈ ms, m.name = n := by
  cases h : ixOf ms n with
  | none =>
    rw [ixOf_none] at h
    simp only [Option.isSome_none, Bool.false_eq_true, false_iff]
    rintro ⟨m, hm, e⟩; exact h m hm e
  | some i =>
    obtain ⟨m, hm, e, _⟩ := ixOf_some h
    simp only [Option.isSome_some, true_iff]
    exact ⟨m, List.mem_of_getElem? hm, e⟩

theorem flattenFrom_keys (blk : Str) : ∀ (ms : List (Meta α)) (i : Nat) (S : Seen) (ds : List Diag) (ok : Bool),
    ∃ ex : List Diag, (flattenFrom blk i ms S ds ok).2.2 = ds ++ ex ∧ (flattenFrom blk i ms S ds ok).1 = (ok && ex.isEmpty) ∧
      (ex = [] ↔ (ms.map (·.name)).Nodup ∧ ∀ m ∈ ms, ∀ e ∈ S, e.1 ≠ m.name)
  | [], i, S, ds, ok => ⟨[], by simp [flattenFrom]⟩
  | m :: ms, i, S, ds, ok => by
    unfold flattenFrom
    split_ifs with h
    · obtain ⟨ex, h1, h2, h3⟩ := flattenFrom_keys blk ms (i + 1) S
        (ds ++ [(m.line, c!"Duplicate " ++ blk ++ c!" property '" ++ m.name ++ c!"'")]) false
      refine ⟨(m.line, c!"Duplicate " ++ blk ++ c!" property '" ++ m.name ++ c!"'") :: ex, ?_, ?_, ?_⟩
      · rw [h1]; simp
      · rw [h2]; simp
      · constructor
        · intro hc; cases hc
        · rintro ⟨_, hc⟩
          rw [List.any_eq_true] at h
          obtain ⟨e, he, he'⟩ := h
          exact absurd (by simpa using he') (hc m (by simp) e he)
    · obtain ⟨ex, h1, h2, h3⟩ := flattenFrom_keys blk ms (i + 1) (seenInsert m.name i S) ds ok
      refine ⟨ex, h1, h2, ?_⟩
      rw [h3]
      have hmem : ∀ (S : Seen) (e : Str × Nat), e ∈ seenInsert m.name i S ↔ e = (m.name, i) ∨ e ∈ S := by
        intro S e
        induction S with
        | nil => simp [seenInsert]
        | cons x S ih =>
          unfold seenInsert
          split_ifs
          · simp
          · simp only [List.mem_cons, ih]; tauto
      have h' : ∀ e ∈ S, e.1 ≠ m.name := by
        intro e he hc
        apply h
        rw [List.any_eq_true]
        exact ⟨e, he, by simpa using hc⟩
      simp only [List.map_cons, List.nodup_cons, hmem, List.mem_map, List.mem_cons]
      constructor
      · rintro ⟨a, b⟩
        refine ⟨⟨?_, a⟩, ?_⟩
        · rintro ⟨m', hm', e⟩
          exact b m' hm' (m.name, i) (Or.inl rfl) e.symm
        · rintro m' (rfl | hm') e he
          · exact h' e he
          · exact b m' hm' e (Or.inr he)
      · rintro ⟨⟨a, a'⟩, b⟩
        refine ⟨a', ?_⟩
        rintro m' hm' e (rfl | he)
        · intro hc; exact a ⟨m', hm', hc.symm⟩
        · exact b m' (Or.inr hm') e he

theorem flatten_ok (blk : Str) (ms : List (Meta α)) : (flatten blk ms).1 = true ↔ (ms.map (·.name)).Nodup := by
  obtain ⟨ex, h1, h2, h3⟩ := flattenFrom_keys blk ms 0 [] [] true
  unfold flatten
  rw [h2]
  simp only [Bool.true_and, List.isEmpty_iff, h3]
  simp

theorem flatten_diags (blk : Str) (ms : List (Meta α)) : (flatten blk ms).2.2 = [] ↔ (flatten blk ms).1 = true := by
  obtain ⟨ex, h1, h2, h3⟩ := flattenFrom_keys blk ms 0 [] [] true
  unfold flatten
  rw [h1, h2]
  simp

/-- with distinct names, looking up by name is membership -/
theorem find_name_nodup {ms : List (Meta α)} (h : (ms.map (·.name)).Nodup) (m : Meta α) :
    ms.find? (fun x => decide (x.name = m.name)) = some m ↔ m ∈ ms := by
  constructor
  · intro hf; exact List.mem_of_find?_eq_some hf
  · intro hm
    induction ms with
    | nil => cases hm
    | cons x ms ih =>
      rw [List.map_cons, List.nodup_cons] at h
      rcases List.mem_cons.mp hm with rfl | hm
      · simp
      · have hx : x.name ≠ m.name := by
          intro hc; apply h.1; rw [hc]; exact List.mem_map.mpr ⟨m, hm, rfl⟩
        rw [List.find?_cons_of_neg (by simpa using hx)]
        exact ih h.2 hm

end S2P
