import Verif.Spec.Arith
import Verif.Model.Stl
import Mathlib.Data.List.Sort

/-! # What is assumed of `std::sort` -/

namespace S2P

/-- `std::sort` permutes; and if the comparator is a strict weak order on the elements, the result is in order.
(Nothing is assumed about stability, nor about the result for other comparators.) -/
structure SortOK (S : Sorter) : Prop where
  perm : ∀ {β : Type} (lt : β → β → Bool) (l : List β), (S.sort lt l).Perm l
  sorted : ∀ {β : Type} (lt : β → β → Bool) (l : List β), StrictWeak (· ∈ l) lt →
    (S.sort lt l).Pairwise (fun a b => lt b a = false)

/-- a sorter exists -/
def insSorter : Sorter := ⟨fun lt l => l.insertionSort (fun a b => lt b a = false)⟩

/-- and it is a sorter in the sense above -/
theorem insSorter_ok : SortOK insSorter where
  perm := fun lt l => List.perm_insertionSort _ l
  sorted := by
    intro β lt l h
    -- sort the list of members with proofs of membership
    have : IsTrans {x // x ∈ l} (fun a b => lt b.1 a.1 = false) := ⟨by
      intro a b c hab hbc
      by_contra hc
      rw [Bool.not_eq_false] at hc
      by_cases hba : lt a.1 b.1 = true
      · have := h.trans _ _ _ c.2 a.2 b.2 hc hba
        rw [hbc] at this; cases this
      · rw [Bool.not_eq_true] at hba
        by_cases hcb : lt b.1 c.1 = true
        · have := h.trans _ _ _ b.2 c.2 a.2 hcb hc
          rw [hab] at this; cases this
        · rw [Bool.not_eq_true] at hcb
          have := (h.incomp _ _ _ a.2 b.2 c.2 hba hab hcb hbc).2
          rw [hc] at this; cases this⟩
    have : Std.Total (fun a b : {x // x ∈ l} => lt b.1 a.1 = false) := ⟨by
      intro a b
      by_cases hab : lt b.1 a.1 = true
      · right
        by_contra hc
        rw [Bool.not_eq_false] at hc
        have := h.trans _ _ _ a.2 b.2 a.2 hc hab
        rw [h.irrefl _ a.2] at this; cases this
      · left; simpa using hab⟩
    have h1 := List.pairwise_insertionSort (fun a b : {x // x ∈ l} => lt b.1 a.1 = false) l.attach
    have h2 : (l.attach.insertionSort (fun a b => lt b.1 a.1 = false)).map Subtype.val = l.insertionSort (fun a b => lt b a = false) := by
      have := List.map_insertionSort (r := fun a b : {x // x ∈ l} => lt b.1 a.1 = false) (s := fun a b => lt b a = false) Subtype.val l.attach (by simp)
      rw [this]; simp
    show (l.insertionSort (fun a b => lt b a = false)).Pairwise _
    rw [← h2, List.pairwise_map]
    exact h1

end S2P
