import Verif.Spec.Arith
import Verif.Model.Stl

set_option linter.unusedSectionVars false
set_option linter.unusedVariables false

namespace S2P
variable {α : Type} [FP α] [FPOrd α]

theorem FP.eq_of_not_lt {x y : α} (hx : FP.Ok x) (hy : FP.Ok y) (h1 : FP.lt x y = false) (h2 : FP.lt y x = false) :
    FP.eq x y = true := (FPOrd.eq_iff x y hx hy).2 ⟨h1, h2⟩

theorem FP.not_lt_of_eq {x y : α} (hx : FP.Ok x) (hy : FP.Ok y) (h : FP.eq x y = true) :
    FP.lt x y = false ∧ FP.lt y x = false := (FPOrd.eq_iff x y hx hy).1 h

theorem FP.eq_symm {x y : α} (hx : FP.Ok x) (hy : FP.Ok y) (h : FP.eq x y = true) : FP.eq y x = true :=
  (FPOrd.eq_iff y x hy hx).2 ((FPOrd.eq_iff x y hx hy).1 h).symm

theorem FP.lt_of_lt_of_eq {x y z : α} (hy : FP.Ok y) (hz : FP.Ok z) (h : FP.lt x y = true) (e : FP.eq y z = true) :
    FP.lt x z = true := by
  rcases FPOrd.lt_cotrans x z y hz h with h' | h'
  · exact h'
  · rw [(FP.not_lt_of_eq hy hz e).2] at h'; exact absurd h' (by simp)

theorem FP.lt_of_eq_of_lt {x y z : α} (hx : FP.Ok x) (hy : FP.Ok y) (e : FP.eq x y = true) (h : FP.lt y z = true) :
    FP.lt x z = true := by
  rcases FPOrd.lt_cotrans y x z hx h with h' | h'
  · rw [(FP.not_lt_of_eq hx hy e).2] at h'; exact absurd h' (by simp)
  · exact h'

theorem FP.eq_trans {x y z : α} (hx : FP.Ok x) (hy : FP.Ok y) (hz : FP.Ok z) (e : FP.eq x y = true)
    (f : FP.eq y z = true) : FP.eq x z = true := by
  apply FP.eq_of_not_lt hx hz
  · by_contra h
    have h : FP.lt x z = true := by simpa using h
    have := FP.lt_of_eq_of_lt hy hx (FP.eq_symm hx hy e) h
    rw [(FP.not_lt_of_eq hy hz f).1] at this; exact absurd this (by simp)
  · by_contra h
    have h : FP.lt z x = true := by simpa using h
    have := FP.lt_of_lt_of_eq hx hy h e
    rw [(FP.not_lt_of_eq hy hz f).2] at this; exact absurd this (by simp)

theorem FP.lt_asymm {x y : α} (h : FP.lt x y = true) : FP.lt y x = false := by
  by_contra h'
  have h' : FP.lt y x = true := by simpa using h'
  have := FPOrd.lt_trans x y x h h'
  rw [FPOrd.lt_irrefl] at this; exact absurd this (by simp)

theorem FP.lt_or_eq_or_gt (x y : α) (hx : FP.Ok x) (hy : FP.Ok y) :
    FP.lt x y = true ∨ FP.eq x y = true ∨ FP.lt y x = true := by
  cases h1 : FP.lt x y
  · cases h2 : FP.lt y x
    · exact Or.inr (Or.inl (FP.eq_of_not_lt hx hy h1 h2))
    · simp
  · simp

theorem FP.not_eq_of_lt {x y : α} (h : FP.lt x y = true) : FP.eq x y = false := by
  have ⟨hx, hy⟩ := FPOrd.ok_of_lt x y h
  by_contra h'
  have h' : FP.eq x y = true := by simpa using h'
  rw [(FP.not_lt_of_eq hx hy h').1] at h; exact absurd h (by simp)

theorem FP.not_eq_of_gt {x y : α} (h : FP.lt y x = true) : FP.eq x y = false := by
  have ⟨hy, hx⟩ := FPOrd.ok_of_lt y x h
  by_contra h'
  have h' : FP.eq x y = true := by simpa using h'
  rw [(FP.not_lt_of_eq hx hy h').2] at h; exact absurd h (by simp)

/-! A lexicographic step -/

/-- one level of the comparison chains in the code: compare the keys unless they are equal -/
def lexStep {β : Type} (f : β → α) (lt : β → β → Bool) (a b : β) : Bool :=
  if !FP.eq (f a) (f b) then FP.lt (f a) (f b) else lt a b

theorem lexStep_true {β : Type} (f : β → α) (lt : β → β → Bool) (a b : β) (ha : FP.Ok (f a)) (hb : FP.Ok (f b)) :
    lexStep f lt a b = true ↔ FP.lt (f a) (f b) = true ∨ (FP.eq (f a) (f b) = true ∧ lt a b = true) := by
  unfold lexStep
  cases h : FP.eq (f a) (f b)
  · simp
  · have := (FP.not_lt_of_eq ha hb h).1
    simp [this]

theorem lexStep_tie {β : Type} (f : β → α) (lt : β → β → Bool) (a b : β) (ha : FP.Ok (f a)) (hb : FP.Ok (f b)) :
    (lexStep f lt a b = false ∧ lexStep f lt b a = false) ↔
      (FP.eq (f a) (f b) = true ∧ lt a b = false ∧ lt b a = false) := by
  constructor
  · rintro ⟨h1, h2⟩
    rcases FP.lt_or_eq_or_gt (f a) (f b) ha hb with h | h | h
    · have := (lexStep_true f lt a b ha hb).2 (Or.inl h); rw [this] at h1; simp at h1
    · refine ⟨h, ?_, ?_⟩
      · simpa [lexStep, h] using h1
      · simpa [lexStep, FP.eq_symm ha hb h] using h2
    · have := (lexStep_true f lt b a hb ha).2 (Or.inl h); rw [this] at h2; simp at h2
  · rintro ⟨h, h1, h2⟩
    simp [lexStep, h, h1, h2, FP.eq_symm ha hb h]

theorem lexStep_strictWeak {β : Type} (P : β → Prop) (f : β → α) (lt : β → β → Bool) (hf : ∀ a, P a → FP.Ok (f a))
    (hs : StrictWeak P lt) : StrictWeak P (lexStep f lt) where
  irrefl a ha := by
    have : FP.eq (f a) (f a) = true := hf a ha
    simp [lexStep, this, hs.irrefl a ha]
  trans a b c ha hb hc h1 h2 := by
    rw [lexStep_true f lt _ _ (hf a ha) (hf c hc)]
    rw [lexStep_true f lt _ _ (hf a ha) (hf b hb)] at h1
    rw [lexStep_true f lt _ _ (hf b hb) (hf c hc)] at h2
    rcases h1 with h1 | ⟨e1, h1⟩ <;> rcases h2 with h2 | ⟨e2, h2⟩
    · exact Or.inl (FPOrd.lt_trans _ _ _ h1 h2)
    · exact Or.inl (FP.lt_of_lt_of_eq (hf b hb) (hf c hc) h1 e2)
    · exact Or.inl (FP.lt_of_eq_of_lt (hf a ha) (hf b hb) e1 h2)
    · exact Or.inr ⟨FP.eq_trans (hf a ha) (hf b hb) (hf c hc) e1 e2, hs.trans a b c ha hb hc h1 h2⟩
  incomp a b c ha hb hc h1 h2 h3 h4 := by
    obtain ⟨e1, i1, j1⟩ := (lexStep_tie f lt a b (hf a ha) (hf b hb)).1 ⟨h1, h2⟩
    obtain ⟨e2, i2, j2⟩ := (lexStep_tie f lt b c (hf b hb) (hf c hc)).1 ⟨h3, h4⟩
    exact (lexStep_tie f lt a c (hf a ha) (hf c hc)).2
      ⟨FP.eq_trans (hf a ha) (hf b hb) (hf c hc) e1 e2, hs.incomp a b c ha hb hc i1 j1 i2 j2⟩

theorem strictWeak_key {β : Type} (P : β → Prop) (f : β → α) (hf : ∀ a, P a → FP.Ok (f a)) :
    StrictWeak P (fun a b => FP.lt (f a) (f b)) where
  irrefl a _ := FPOrd.lt_irrefl _
  trans a b c _ _ _ h1 h2 := FPOrd.lt_trans _ _ _ h1 h2
  incomp a b c ha hb hc h1 h2 h3 h4 :=
    FP.not_lt_of_eq (hf a ha) (hf c hc) (FP.eq_trans (hf a ha) (hf b hb) (hf c hc)
      (FP.eq_of_not_lt (hf a ha) (hf b hb) h1 h2) (FP.eq_of_not_lt (hf b hb) (hf c hc) h3 h4))

theorem order_eq_lex : (order : V3 α → V3 α → Bool) =
    lexStep V3.x (lexStep V3.y (fun a b => FP.lt (V3.z a) (V3.z b))) := rfl

theorem order_strictWeak : StrictWeak (V3.Ok (α := α)) order := by
  rw [order_eq_lex]
  exact lexStep_strictWeak _ _ _ (fun a h => h.1) (lexStep_strictWeak _ _ _ (fun a h => h.2.1)
    (strictWeak_key _ _ (fun a h => h.2.2)))

theorem order_tie (a b : V3 α) (ha : a.Ok) (hb : b.Ok) :
    (order a b = false ∧ order b a = false) ↔ a.eqv b = true := by
  rw [order_eq_lex, lexStep_tie _ _ _ _ ha.1 hb.1, lexStep_tie _ _ _ _ ha.2.1 hb.2.1, ← FPOrd.eq_iff _ _ ha.2.2 hb.2.2]
  simp [V3.eqv, and_assoc]

theorem lineLt_eq_lex : (Line.lt : Line α → Line α → Bool) =
    lexStep (fun l => l.o.x) (lexStep (fun l => l.o.y) (lexStep (fun l => l.t.x) (fun a b => FP.lt a.t.y b.t.y))) := rfl

/-! Symmetry of strict weak orders used as keys -/

theorem StrictWeak.asymm {β : Type} {P : β → Prop} {lt : β → β → Bool} (h : StrictWeak P lt) {a b : β} (ha : P a)
    (hb : P b) (hab : lt a b = true) : lt b a = false := by
  by_contra h'
  have h' : lt b a = true := by simpa using h'
  have := h.trans a b a ha hb ha hab h'
  rw [h.irrefl a ha] at this; simp at this

/-- pairs compared lexicographically by a strict weak order, as stl.cc:287-293 does -/
theorem edgeOrder_strictWeak : StrictWeak (fun e : Edge α => e.1.Ok ∧ e.2.Ok) edgeOrder := by
  have H := order_strictWeak (α := α)
  have key : ∀ a b : Edge α, (a.1.Ok ∧ a.2.Ok) → (b.1.Ok ∧ b.2.Ok) →
      (edgeOrder a b = true ↔ order a.1 b.1 = true ∨ (order a.1 b.1 = false ∧ order b.1 a.1 = false ∧ order a.2 b.2 = true)) := by
    intro a b ha hb
    unfold edgeOrder
    cases h1 : order a.1 b.1 <;> cases h2 : order b.1 a.1 <;> simp
  have T : ∀ a b : V3 α, a.Ok → b.Ok → order a b = true → order b a = false := fun a b ha hb h => H.asymm ha hb h
  -- a < b ~ c gives a < c, and a ~ b < c gives a < c
  have R1 : ∀ a b c : V3 α, a.Ok → b.Ok → c.Ok → order a b = true → order b c = false → order c b = false →
      order a c = true := by
    intro a b c ha hb hc h h1 h2
    by_contra h'
    have h' : order a c = false := by simpa using h'
    cases hca : order c a
    · have := H.incomp b c a hb hc ha h1 h2 hca h'
      rw [h] at this; simp at this
    · have := H.trans c a b hc ha hb hca h
      rw [this] at h2; simp at h2
  have R2 : ∀ a b c : V3 α, a.Ok → b.Ok → c.Ok → order a b = false → order b a = false → order b c = true →
      order a c = true := by
    intro a b c ha hb hc h1 h2 h
    by_contra h'
    have h' : order a c = false := by simpa using h'
    cases hca : order c a
    · have := H.incomp b a c hb ha hc h2 h1 h' hca
      rw [h] at this; simp at this
    · have := H.trans b c a hb hc ha h hca
      rw [this] at h2; simp at h2
  refine ⟨?_, ?_, ?_⟩
  · intro a ha
    have := H.irrefl a.1 ha.1
    have := H.irrefl a.2 ha.2
    simp [edgeOrder, *]
  · intro a b c ha hb hc h1 h2
    rw [key a b ha hb] at h1; rw [key b c hb hc] at h2; rw [key a c ha hc]
    rcases h1 with h1 | ⟨i1, j1, h1⟩ <;> rcases h2 with h2 | ⟨i2, j2, h2⟩
    · exact Or.inl (H.trans _ _ _ ha.1 hb.1 hc.1 h1 h2)
    · exact Or.inl (R1 _ _ _ ha.1 hb.1 hc.1 h1 i2 j2)
    · exact Or.inl (R2 _ _ _ ha.1 hb.1 hc.1 i1 j1 h2)
    · have := H.incomp _ _ _ ha.1 hb.1 hc.1 i1 j1 i2 j2
      exact Or.inr ⟨this.1, this.2, H.trans _ _ _ ha.2 hb.2 hc.2 h1 h2⟩
  · have K : ∀ a b : Edge α, (edgeOrder a b = false ∧ edgeOrder b a = false) ↔
        (order a.1 b.1 = false ∧ order b.1 a.1 = false) ∧ (order a.2 b.2 = false ∧ order b.2 a.2 = false) := by
      intro a b
      unfold edgeOrder
      cases h1 : order a.1 b.1 <;> cases h2 : order b.1 a.1 <;> simp
    intro a b c ha hb hc h1 h2 h3 h4
    obtain ⟨p, q⟩ := (K a b).1 ⟨h1, h2⟩
    obtain ⟨p', q'⟩ := (K b c).1 ⟨h3, h4⟩
    exact (K a c).2 ⟨H.incomp _ _ _ ha.1 hb.1 hc.1 p.1 p.2 p'.1 p'.2, H.incomp _ _ _ ha.2 hb.2 hc.2 q.1 q.2 q'.1 q'.2⟩

theorem edgeOrder_tie (a b : Edge α) (ha : a.1.Ok ∧ a.2.Ok) (hb : b.1.Ok ∧ b.2.Ok) :
    (edgeOrder a b = false ∧ edgeOrder b a = false) ↔ a.1.eqv b.1 = true ∧ a.2.eqv b.2 = true := by
  rw [← order_tie _ _ ha.1 hb.1, ← order_tie _ _ ha.2 hb.2]
  unfold edgeOrder
  cases h1 : order a.1 b.1 <;> cases h2 : order b.1 a.1 <;> simp

end S2P
