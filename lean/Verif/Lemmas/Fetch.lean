import Verif.Lemmas.Nearest

set_option linter.unusedSectionVars false
set_option linter.unusedVariables false
set_option linter.unusedSimpArgs false

/-! # When three different points are fetched, and which -/

namespace S2P

section
variable {α : Type} [FP α]

/-- what holds besides `CInv` once the first point `p0` has been offered -/
structure XInv (count : Nat) (tgt p0 : V2 α) (c : List (α × V2 α)) : Prop where
  nod : (c.map (·.2)).Nodup
  few : c.length < count → p0 ∈ c.map (·.2)
  le : ∀ e ∈ c, FP.lt (cDist tgt p0) e.1 = false

theorem xinv_step [FPOrd α] (count : Nat) (tgt p0 : V2 α) (pre : List (V2 α)) (c : List (α × V2 α)) (p : V2 α)
    (hok : ∀ q ∈ pre ++ [p], FP.Ok (cDist tgt q)) (h0 : p0 ∈ pre) (hself : nearDup tgt p p = true)
    (h : CInv count tgt pre c) (n : XInv count tgt p0 c) : XInv count tgt p0 (closestStep count tgt c p) := by
  have hokc : ∀ e ∈ c, FP.Ok e.1 := by
    intro e he
    rw [h.keyed e he]
    exact hok _ (List.mem_append_left _ (h.sub.subset (List.mem_map.mpr ⟨e, he, rfl⟩)))
  have hne : c ≠ [] := h.some (by rintro rfl; cases h0)
  obtain ⟨l, hl⟩ := Option.ne_none_iff_exists'.mp (mt List.getLast?_eq_none_iff.mp hne)
  have hlc : l ∈ c := List.mem_of_getLast? hl
  have hperm := mmInsert_perm (cDist tgt p) p c
  have hplen : (mmInsert (cDist tgt p) p c).length = c.length + 1 := by rw [hperm.length_eq]; simp
  rw [closestStep_eq count tgt c p h.keyed]
  split
  · exact n
  rename_i hcond
  push Not at hcond
  obtain ⟨hfar, hnd⟩ := hcond
  have hfl : FP.lt l.1 (cDist tgt p) = false := by
    cases hx : FP.lt l.1 (cDist tgt p) with
    | false => rfl
    | true => exact absurd hx (hfar l hl)
  have hpc : p ∉ c.map (·.2) := by
    intro hp
    obtain ⟨e, he, rfl⟩ := List.mem_map.1 hp
    exact hnd e he hself
  refine ⟨?_, ?_, ?_⟩
  · have h1 : ((mmInsert (cDist tgt p) p c).map (·.2)).Nodup := by
      rw [(hperm.map (·.2)).nodup_iff, List.map_cons, List.nodup_cons]
      exact ⟨hpc, n.nod⟩
    exact h1.sublist ((List.take_sublist _ _).map _)
  · intro hlt
    rw [List.length_take, hplen] at hlt
    rw [List.take_of_length_le (by omega), (hperm.map (·.2)).mem_iff]
    exact List.mem_cons_of_mem _ (n.few (by omega))
  · intro e he
    rcases List.mem_cons.mp (hperm.mem_iff.mp (List.mem_of_mem_take he)) with rfl | he
    · exact FP.not_lt_trans (hokc l hlc) hfl (n.le l hlc)
    · exact n.le e he

theorem xinv_fold [FPOrd α] (count : Nat) (hc : 1 ≤ count) (tgt p0 : V2 α) : ∀ (rest pre : List (V2 α)) (c : List (α × V2 α)),
    (∀ q ∈ pre ++ rest, FP.Ok (cDist tgt q)) → p0 ∈ pre → (∀ q ∈ rest, nearDup tgt q q = true) → CInv count tgt pre c → XInv count tgt p0 c →
    XInv count tgt p0 (rest.foldl (closestStep count tgt) c)
  | [], pre, c, _, _, _, _, n => n
  | p :: rest, pre, c, hok, h0, hs, h, n => by
    have hok' : ∀ q ∈ pre ++ [p], FP.Ok (cDist tgt q) := fun q hq => hok q (by
        rcases List.mem_append.mp hq with h1 | h1
        · simp [h1]
        · simp at h1; simp [h1])
    exact xinv_fold count hc tgt p0 rest (pre ++ [p]) (closestStep count tgt c p) (by simpa using hok) (by simp [h0])
      (fun q hq => hs q (by simp [hq])) (cinv_step count hc tgt pre c p hok' h) (xinv_step count tgt p0 pre c p hok' h0 (hs p (by simp)) h n)

/-- `e` is kept in place of `x` -/
def StandIn (tgt e x : V2 α) : Prop := e = x ∨ nearDup tgt x e = true

/-- Three points are fetched, different from one another and none farther than all of three that are closer than the first. -/
theorem fetch_three [FPOrd α] (tgt p0 : V2 α) (ps : List (V2 α)) (hok : ∀ q ∈ p0 :: ps, FP.Ok (cDist tgt q)) (hself : ∀ q ∈ ps, nearDup tgt q q = true)
    (a b c : V2 α) (hm : ∀ x ∈ [a, b, c], x ∈ p0 :: ps) (hlt : ∀ x ∈ [a, b, c], FP.lt (cDist tgt x) (cDist tgt p0) = true)
    (hsep : [a, b, c].Pairwise (fun x y => ∀ e ∈ p0 :: ps, StandIn tgt e x → ¬ StandIn tgt e y)) :
    ∃ x y z, closest (p0 :: ps) 3 tgt = [x, y, z] ∧ x ≠ y ∧ x ≠ z ∧ y ≠ z ∧ ∀ e ∈ [x, y, z], e ∈ p0 :: ps ∧ ∃ u ∈ [a, b, c], FP.lt (cDist tgt u) (cDist tgt e) = false := by
  have e1 := closestStep_first 3 (by norm_num) tgt p0
  have hc1 : CInv 3 tgt [p0] (closestStep 3 tgt [] p0) := by
    have := cinv_closest 3 (by norm_num) tgt [p0] (fun q hq => hok q (by simp at hq; simp [hq]))
    simpa using this
  have hx1 : XInv 3 tgt p0 (closestStep 3 tgt [] p0) := by
    rw [e1]
    refine ⟨by simp, by simp, ?_⟩
    intro e he; simp at he; subst he; exact FPOrd.lt_irrefl _
  have C := cinv_closest 3 (by norm_num) tgt (p0 :: ps) hok
  have X := xinv_fold 3 (by norm_num) tgt p0 ps [p0] _ (by simpa using hok) (by simp) hself hc1 hx1
  have hcl : closest (p0 :: ps) 3 tgt = ((p0 :: ps).foldl (closestStep 3 tgt) []).map (·.2) := by
    unfold closest; rw [if_neg (by norm_num)]; rfl
  rw [hcl]
  rw [List.foldl_cons] at C ⊢
  set k := ps.foldl (closestStep 3 tgt) (closestStep 3 tgt [] p0) with hk
  have key : ∀ e ∈ k, ∃ u ∈ [a, b, c], FP.lt (cDist tgt u) e.1 = false := by
    intro e he
    by_contra hcon
    push Not at hcon
    have hcon' : ∀ u ∈ [a, b, c], FP.lt (cDist tgt u) e.1 = true := fun u hu => by
      have := hcon u hu
      simpa using this
    have rep : ∀ u ∈ [a, b, c], ∃ w ∈ k.map (·.2), StandIn tgt w u ∧ e.2 ≠ w := by
      intro u hu
      have hue := hcon' u hu
      rw [C.keyed e he] at hue
      rcases C.omitted u (hm u hu) with h | h | ⟨w, hw, h⟩
      · refine ⟨u, h, .inl rfl, ?_⟩
        rintro rfl
        rw [FPOrd.lt_irrefl] at hue; cases hue
      · have := h e he
        rw [hcon' u hu] at this; cases this
      · refine ⟨w.2, List.mem_map.2 ⟨w, hw, rfl⟩, .inr h, ?_⟩
        intro heq
        unfold nearDup at h
        simp only [Bool.and_eq_true, Bool.not_eq_true'] at h
        rw [heq, h.1.2] at hue; cases hue
    obtain ⟨wa, ha, sa, na⟩ := rep a (by simp)
    obtain ⟨wb, hb, sb, nb⟩ := rep b (by simp)
    obtain ⟨wc, hcc, sc, nc⟩ := rep c (by simp)
    rw [List.pairwise_cons, List.pairwise_cons] at hsep
    have pab := hsep.1 b (by simp)
    have pac := hsep.1 c (by simp)
    have pbc := hsep.2.1 c (by simp)
    have d1 : wa ≠ wb := by rintro rfl; exact pab _ (C.sub.subset ha) sa sb
    have d2 : wa ≠ wc := by rintro rfl; exact pac _ (C.sub.subset ha) sa sc
    have d3 : wb ≠ wc := by rintro rfl; exact pbc _ (C.sub.subset hb) sb sc
    have hn : [e.2, wa, wb, wc].Nodup := by simp [na, nb, nc, d1, d2, d3]
    have hsub : [e.2, wa, wb, wc] ⊆ k.map (·.2) := by
      intro x hx
      simp only [List.mem_cons, List.not_mem_nil, or_false] at hx
      rcases hx with rfl | rfl | rfl | rfl
      · exact List.mem_map.2 ⟨e, he, rfl⟩
      · exact ha
      · exact hb
      · exact hcc
    have h1 := (List.subperm_of_subset hn hsub).length_le
    have h2 := C.len
    simp at h1
    omega
  have hlen : k.length = 3 := by
    by_contra hne
    have := C.len
    obtain ⟨e, he, hep⟩ := List.mem_map.1 (X.few (by omega))
    obtain ⟨u, hu, h1⟩ := key e he
    rw [C.keyed e he, hep, hlt u hu] at h1
    cases h1
  obtain ⟨x, y, z, hxyz⟩ : ∃ x y z, k.map (·.2) = [x, y, z] := by
    have : (k.map (·.2)).length = 3 := by simpa using hlen
    exact List.length_eq_three.1 this
  have hnod := X.nod
  rw [hxyz] at hnod
  simp only [List.nodup_cons, List.mem_cons, List.not_mem_nil, or_false, not_or] at hnod
  refine ⟨x, y, z, hxyz, hnod.1.1, hnod.1.2, hnod.2.1, ?_⟩
  intro e he
  rw [← hxyz] at he
  refine ⟨C.sub.subset he, ?_⟩
  obtain ⟨q, hq, rfl⟩ := List.mem_map.1 he
  have := key q hq
  rwa [C.keyed q hq] at this

end
end S2P
