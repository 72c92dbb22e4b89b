import Verif.Model.Stl
import Mathlib.Data.List.Perm.Basic
import Mathlib.Data.List.Perm.Subperm

set_option linter.unusedSectionVars false
set_option linter.unusedVariables false

namespace S2P

theorem swapAt_length {β : Type} (l : List β) (i j : Nat) : (swapAt l i j).length = l.length := by
  unfold swapAt; split <;> simp

theorem swapAt_perm {β : Type} (l : List β) (i j : Nat) : (swapAt l i j).Perm l := by
  unfold swapAt
  split
  · rename_i a b ha hb
    obtain ⟨hi, rfl⟩ := List.getElem?_eq_some_iff.1 ha
    obtain ⟨hj, rfl⟩ := List.getElem?_eq_some_iff.1 hb
    exact List.set_set_perm hi hj
  · exact List.Perm.refl _

theorem swapAt_getElem? {β : Type} (l : List β) (i j k : Nat) (hi : i < l.length) (hj : j < l.length) :
    (swapAt l i j)[k]? = if k = j then l[i]? else if k = i then l[j]? else l[k]? := by
  unfold swapAt
  rw [List.getElem?_eq_getElem hi, List.getElem?_eq_getElem hj]
  simp only [List.getElem?_set, List.length_set]
  by_cases h1 : k = j
  · subst h1; simp [hj]
  · by_cases h2 : k = i
    · subst h2; simp [h1, hi, Ne.symm h1]
    · simp [h1, h2, Ne.symm h1, Ne.symm h2]

end S2P

namespace S2P
variable {α : Type} [FP α]

theorem swapAt_take {β : Type} (l : List β) (i j n : Nat) (hi : i < n) (hj : j < n) (hn : n ≤ l.length) :
    (swapAt l i j).take n = swapAt (l.take n) i j := by
  apply List.ext_getElem?
  intro k
  rw [swapAt_getElem? _ _ _ _ (by simp; omega) (by simp; omega)]
  simp only [List.getElem?_take]
  rw [swapAt_getElem? _ _ _ _ (by omega) (by omega)]
  by_cases hk : k < n
  · simp [hk, hi, hj]
  · have h1 : k ≠ i := by omega
    have h2 : k ≠ j := by omega
    simp [hk, h1, h2]

/-- the facets the viewer can see: exactly the complement of the test at stl.cc:150 -/
def frontTest (f : Facet α) : Bool := !FP.le f.norm.z (FP.lit 0)

theorem cullLoop_perm : ∀ (n : Nat) (fs : List (Facet α)) (i j : Nat), j - i = n → i ≤ j → j ≤ fs.length →
    (∀ k f, k < i → fs[k]? = some f → frontTest f = true) →
    (cullLoop fs i j).Perm ((fs.take j).filter frontTest) := by
  intro n
  induction n with
  | zero =>
    intro fs i j hn hij hj hfr
    have : i = j := by omega
    subst this
    rw [cullLoop, if_neg (lt_irrefl _)]
    rw [List.filter_eq_self.2]
    intro f hf
    obtain ⟨k, hk, rfl⟩ := List.mem_iff_getElem.1 hf
    simp only [List.length_take] at hk
    exact hfr k _ (by omega) (by simp [List.getElem?_eq_getElem (show k < fs.length by omega)])
  | succ n ih =>
    intro fs i j hn hij hj hfr
    have hlt : i < j := by omega
    rw [cullLoop, if_pos hlt]
    have hi : i < fs.length := by omega
    rw [List.getElem?_eq_getElem hi]
    simp only
    split
    · rename_i hback
      refine (ih (swapAt fs i (j - 1)) i (j - 1) (by omega) (by omega) (by rw [swapAt_length]; omega) ?_).trans ?_
      · intro k f hk hf
        rw [swapAt_getElem? _ _ _ _ hi (by omega), if_neg (by omega), if_neg (by omega)] at hf
        exact hfr k f hk hf
      · have hp : ((swapAt fs i (j - 1)).take j).Perm (fs.take j) := by
          rw [swapAt_take _ _ _ _ hlt (by omega) hj]; exact swapAt_perm _ _ _
        refine List.Perm.trans ?_ (hp.filter _)
        have hj1 : j - 1 < (swapAt fs i (j - 1)).length := by rw [swapAt_length]; omega
        have : (swapAt fs i (j - 1)).take j = (swapAt fs i (j - 1)).take (j - 1) ++ [fs[i]] := by
          obtain ⟨m, rfl⟩ : ∃ m, j = m + 1 := ⟨j - 1, by omega⟩
          rw [List.take_add_one, Nat.add_sub_cancel, swapAt_getElem? _ _ _ _ hi (by omega), if_pos rfl,
            List.getElem?_eq_getElem hi]
          rfl
        rw [this, List.filter_append]
        have : frontTest fs[i] = false := by simp [frontTest, hback]
        simp [this]
    · rename_i hfront
      refine ih fs (i + 1) j (by omega) (by omega) hj ?_
      intro k f hk hf
      by_cases hki : k = i
      · subst hki
        rw [List.getElem?_eq_getElem hi] at hf
        injection hf with hf; subst hf
        simpa [frontTest] using hfront
      · exact hfr k f (by omega) hf

theorem cullFacets_perm (fs : List (Facet α)) : (cullFacets fs).Perm (fs.filter frontTest) := by
  have := cullLoop_perm (fs.length - 0) fs 0 fs.length rfl (Nat.zero_le _) (le_refl _) (by intro k f hk; omega)
  rwa [List.take_length] at this

theorem cullLoop_all_front : ∀ (n : Nat) (fs : List (Facet α)) (i j : Nat), j - i = n → i ≤ j → j ≤ fs.length →
    (∀ f ∈ fs, frontTest f = true) → cullLoop fs i j = fs.take j := by
  intro n
  induction n with
  | zero =>
    intro fs i j hn hij hj hfr
    rw [cullLoop, if_neg (by omega)]
  | succ n ih =>
    intro fs i j hn hij hj hfr
    have hlt : i < j := by omega
    have hi : i < fs.length := by omega
    rw [cullLoop, if_pos hlt, List.getElem?_eq_getElem hi]
    have : FP.le fs[i].norm.z (FP.lit 0) = false := by simpa [frontTest] using hfr fs[i] (List.getElem_mem hi)
    simp only [this]
    exact ih fs (i + 1) j (by omega) (by omega) hj hfr

theorem cullFacets_all_front (fs : List (Facet α)) (h : ∀ f ∈ fs, frontTest f = true) : cullFacets fs = fs := by
  have := cullLoop_all_front (fs.length - 0) fs 0 fs.length rfl (Nat.zero_le _) (le_refl _) h
  rwa [List.take_length] at this

theorem cullFacets_front (fs : List (Facet α)) : ∀ f ∈ cullFacets fs, frontTest f = true := by
  intro f hf
  have := (cullFacets_perm fs).subset hf
  exact (List.mem_filter.1 this).2

end S2P
