import Verif.Lemmas.Order
import Verif.Lemmas.Cull

set_option linter.unusedSectionVars false
set_option linter.unusedVariables false

namespace S2P
variable {α : Type} [FP α]

section
variable [FPOrd α]

theorem FP.le_refl_ok {x : α} (h : FP.Ok x) : FP.le x x = true := (FPOrd.le_iff x x h h).2 (FPOrd.lt_irrefl x)
theorem FP.le_trans {x y z : α} (h1 : FP.le x y = true) (h2 : FP.le y z = true) : FP.le x z = true := by
  have ⟨hx, hy⟩ := FPOrd.ok_of_le x y h1
  have ⟨_, hz⟩ := FPOrd.ok_of_le y z h2
  rw [FPOrd.le_iff x z hx hz]
  rw [FPOrd.le_iff x y hx hy] at h1
  rw [FPOrd.le_iff y z hy hz] at h2
  by_contra h
  have h : FP.lt z x = true := by simpa using h
  rcases FPOrd.lt_cotrans z y x hy h with h' | h'
  · rw [h2] at h'; simp at h'
  · rw [h1] at h'; simp at h'
theorem FP.le_of_lt {x y : α} (h : FP.lt x y = true) : FP.le x y = true := by
  have ⟨hx, hy⟩ := FPOrd.ok_of_lt x y h
  rw [FPOrd.le_iff x y hx hy]; exact FP.lt_asymm h

theorem FP.min_le {a b : α} (ha : FP.Ok a) (hb : FP.Ok b) :
    FP.le (FP.min a b) a = true ∧ FP.le (FP.min a b) b = true ∧ (FP.min a b = a ∨ FP.min a b = b) := by
  unfold FP.min
  cases h : FP.lt b a
  · simp [FP.le_refl_ok ha, (FPOrd.le_iff a b ha hb).2 h]
  · simp [FP.le_refl_ok hb, FP.le_of_lt h]

theorem FP.le_max {a b : α} (ha : FP.Ok a) (hb : FP.Ok b) :
    FP.le a (FP.max a b) = true ∧ FP.le b (FP.max a b) = true ∧ (FP.max a b = a ∨ FP.max a b = b) := by
  unfold FP.max
  cases h : FP.lt a b
  · simp [FP.le_refl_ok ha, (FPOrd.le_iff b a hb ha).2 h]
  · simp [FP.le_refl_ok hb, FP.le_of_lt h]

theorem foldl_min (l : List α) : ∀ i : α, FP.Ok i → (∀ x ∈ l, FP.Ok x) →
    FP.Ok (l.foldl FP.min i) ∧ (∀ x ∈ i :: l, FP.le (l.foldl FP.min i) x = true) ∧ l.foldl FP.min i ∈ i :: l := by
  induction l with
  | nil => intro i hi _; simpa using ⟨hi, FP.le_refl_ok hi⟩
  | cons a l ih =>
    intro i hi hl
    have ha := hl a (by simp)
    obtain ⟨h1, h2, h3⟩ := FP.min_le hi ha
    have hm : FP.Ok (FP.min i a) := by rcases h3 with h | h <;> rw [h] <;> assumption
    obtain ⟨k1, k2, k3⟩ := ih (FP.min i a) hm (fun x hx => hl x (by simp [hx]))
    simp only [List.foldl_cons]
    have k0 := k2 _ (List.mem_cons_self)
    refine ⟨k1, ?_, ?_⟩
    · intro x hx
      simp only [List.mem_cons] at hx
      rcases hx with rfl | rfl | hx
      · exact FP.le_trans k0 h1
      · exact FP.le_trans k0 h2
      · exact k2 x (by simp [hx])
    · rcases List.mem_cons.1 k3 with h | h
      · rw [h]; rcases h3 with h | h <;> rw [h] <;> simp
      · simp [h]

theorem foldl_max (l : List α) : ∀ i : α, FP.Ok i → (∀ x ∈ l, FP.Ok x) →
    FP.Ok (l.foldl FP.max i) ∧ (∀ x ∈ i :: l, FP.le x (l.foldl FP.max i) = true) ∧ l.foldl FP.max i ∈ i :: l := by
  induction l with
  | nil => intro i hi _; simpa using ⟨hi, FP.le_refl_ok hi⟩
  | cons a l ih =>
    intro i hi hl
    have ha := hl a (by simp)
    obtain ⟨h1, h2, h3⟩ := FP.le_max hi ha
    have hm : FP.Ok (FP.max i a) := by rcases h3 with h | h <;> rw [h] <;> assumption
    obtain ⟨k1, k2, k3⟩ := ih (FP.max i a) hm (fun x hx => hl x (by simp [hx]))
    simp only [List.foldl_cons]
    have k0 := k2 _ (List.mem_cons_self)
    refine ⟨k1, ?_, ?_⟩
    · intro x hx
      simp only [List.mem_cons] at hx
      rcases hx with rfl | rfl | hx
      · exact FP.le_trans h1 k0
      · exact FP.le_trans h2 k0
      · exact k2 x (by simp [hx])
    · rcases List.mem_cons.1 k3 with h | h
      · rw [h]; rcases h3 with h | h <;> rw [h] <;> simp
      · simp [h]
end

/-- the running bounding box of stl.cc:160-168, by component -/
theorem limits_fold (l : List (V3 α)) : ∀ b : Line α,
    l.foldl (fun b e => (⟨⟨FP.min b.o.x e.x, FP.min b.o.y e.y⟩, ⟨FP.max b.t.x e.x, FP.max b.t.y e.y⟩⟩ : Line α)) b =
    ⟨⟨(l.map V3.x).foldl FP.min b.o.x, (l.map V3.y).foldl FP.min b.o.y⟩,
     ⟨(l.map V3.x).foldl FP.max b.t.x, (l.map V3.y).foldl FP.max b.t.y⟩⟩ := by
  induction l with
  | nil => intro b; rfl
  | cons a l ih => intro b; simp only [List.foldl_cons, ih, List.map_cons]

/-- all corners of all facets -/
def STLFile.corners {β : Type} (s : STLFile β) : List (V3 β) := s.facets.flatMap Facet.corners

/-! sets as sorted lists -/

section
variable {κ : Type} {P : κ → Prop} {lt : κ → κ → Bool}

theorem setInsert_mem (k : κ) (l : List κ) : ∀ x ∈ setInsert lt k l, x = k ∨ x ∈ l := by
  induction l with
  | nil => simp [setInsert]
  | cons a l ih =>
    intro x hx
    unfold setInsert at hx
    split_ifs at hx
    · simpa using hx
    · rcases List.mem_cons.1 hx with rfl | hx
      · simp
      · rcases ih x hx with h | h <;> simp [h]
    · simp [hx]

theorem setInsert_subset (k : κ) (l : List κ) : ∀ x ∈ l, x ∈ setInsert lt k l := by
  induction l with
  | nil => simp
  | cons a l ih =>
    intro x hx
    unfold setInsert
    split_ifs
    · simp [hx]
    · rcases List.mem_cons.1 hx with rfl | hx
      · simp
      · simp [ih x hx]
    · exact hx

/-- after inserting `k` some element is equivalent to `k` -/
theorem setInsert_has (hs : ∀ a, P a → lt a a = false) (k : κ) (hk : P k) (l : List κ) :
    ∃ x ∈ setInsert lt k l, lt x k = false ∧ lt k x = false := by
  induction l with
  | nil => exact ⟨k, by simp [setInsert], hs k hk, hs k hk⟩
  | cons a l ih =>
    unfold setInsert
    split_ifs with h1 h2
    · exact ⟨k, by simp, hs k hk, hs k hk⟩
    · obtain ⟨x, hx, h⟩ := ih; exact ⟨x, by simp [hx], h⟩
    · exact ⟨a, by simp, by simpa using h2, by simpa using h1⟩

theorem setInsert_pairwise (hs : StrictWeak P lt) (k : κ) (hk : P k) (l : List κ) (hl : ∀ x ∈ l, P x)
    (h : l.Pairwise (fun a b => lt a b = true)) : (setInsert lt k l).Pairwise (fun a b => lt a b = true) := by
  induction l with
  | nil => simp [setInsert]
  | cons a l ih =>
    have ha := hl a (by simp)
    have hl' : ∀ x ∈ l, P x := fun x hx => hl x (by simp [hx])
    obtain ⟨h1, h2⟩ := List.pairwise_cons.1 h
    unfold setInsert
    split_ifs with c1 c2
    · refine List.pairwise_cons.2 ⟨?_, h⟩
      intro x hx
      rcases List.mem_cons.1 hx with rfl | hx
      · exact c1
      · exact hs.trans k a x hk ha (hl' x hx) c1 (h1 x hx)
    · refine List.pairwise_cons.2 ⟨?_, ih hl' h2⟩
      intro x hx
      rcases setInsert_mem k l x hx with rfl | hx
      · exact c2
      · exact h1 x hx
    · exact h

theorem foldl_setInsert (hs : StrictWeak P lt) (ks : List κ) : ∀ (l : List κ), (∀ x ∈ ks, P x) → (∀ x ∈ l, P x) →
    l.Pairwise (fun a b => lt a b = true) →
    (∀ x ∈ ks.foldl (fun s k => setInsert lt k s) l, x ∈ ks ∨ x ∈ l) ∧
    (∀ x ∈ l, x ∈ ks.foldl (fun s k => setInsert lt k s) l) ∧
    (∀ k ∈ ks, ∃ x ∈ ks.foldl (fun s k => setInsert lt k s) l, lt x k = false ∧ lt k x = false) ∧
    (ks.foldl (fun s k => setInsert lt k s) l).Pairwise (fun a b => lt a b = true) := by
  induction ks with
  | nil => intro l _ hl h; simp [h]
  | cons k ks ih =>
    intro l hks hl h
    have hk := hks k (by simp)
    have hl' : ∀ x ∈ setInsert lt k l, P x := by
      intro x hx
      rcases setInsert_mem k l x hx with rfl | hx
      · exact hk
      · exact hl x hx
    obtain ⟨i1, i2, i3, i4⟩ := ih (setInsert lt k l) (fun x hx => hks x (by simp [hx])) hl'
      (setInsert_pairwise hs k hk l hl h)
    simp only [List.foldl_cons]
    refine ⟨?_, ?_, ?_, i4⟩
    · intro x hx
      rcases i1 x hx with hx | hx
      · simp [hx]
      · rcases setInsert_mem k l x hx with rfl | hx
        · simp
        · simp [hx]
    · intro x hx; exact i2 x (setInsert_subset k l x hx)
    · intro k' hk'
      rcases List.mem_cons.1 hk' with rfl | hk'
      · obtain ⟨x, hx, h⟩ := setInsert_has (P := P) hs.irrefl k' hk l
        exact ⟨x, i2 x hx, h⟩
      · exact i3 k' hk'
end

end S2P
