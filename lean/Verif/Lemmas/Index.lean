import Verif.Lemmas.Stl
import Verif.Lemmas.StlMake
import Verif.Spec.Edges

set_option linter.unusedSectionVars false
set_option linter.unusedVariables false

namespace S2P

/-- neither precedes the other -/
def tie {κ : Type} (lt : κ → κ → Bool) (a b : κ) : Bool := !lt a b && !lt b a

theorem tie_iff {κ : Type} (lt : κ → κ → Bool) (a b : κ) : tie lt a b = true ↔ lt a b = false ∧ lt b a = false := by
  simp [tie]
theorem tie_symm {κ : Type} (lt : κ → κ → Bool) (a b : κ) : tie lt a b = tie lt b a := by
  simp [tie, Bool.and_comm]

section
variable {κ : Type} {P : κ → Prop} {lt : κ → κ → Bool}

theorem tie_refl (hs : StrictWeak P lt) (a : κ) (ha : P a) : tie lt a a = true := by
  simp [tie, hs.irrefl a ha]
theorem tie_trans (hs : StrictWeak P lt) {a b c : κ} (ha : P a) (hb : P b) (hc : P c) (h1 : tie lt a b = true)
    (h2 : tie lt b c = true) : tie lt a c = true := by
  rw [tie_iff] at *
  exact hs.incomp a b c ha hb hc h1.1 h1.2 h2.1 h2.2

theorem find?_zipIdx {β : Type} (p : β → Bool) (l : List β) : ∀ n,
    ((l.zipIdx n).find? (fun e => p e.1)).map (·.2) = (l.findIdx? p).map (· + n) := by
  induction l with
  | nil => intro n; simp
  | cons a l ih =>
    intro n
    rw [List.zipIdx_cons, List.find?_cons, List.findIdx?_cons]
    cases h : p a
    · simp only [ih (n + 1)]
      cases l.findIdx? p <;> simp [Nat.add_assoc, Nat.add_comm 1]
    · simp

theorem mapFind_zipIdx_eq (k : κ) (l : List κ) : mapFind lt k l.zipIdx = l.findIdx? (fun e => tie lt e k) := by
  unfold mapFind
  have := find?_zipIdx (fun e => tie lt e k) l 0
  simp only [Nat.add_zero, Option.map_id'] at this
  exact this

theorem mapFind_none (k : κ) (l : List κ) : mapFind lt k l.zipIdx = none ↔ ∀ e ∈ l, tie lt e k = false := by
  rw [mapFind_zipIdx_eq]; simp

theorem mapFind_some (k : κ) (l : List κ) (i : Nat) (h : mapFind lt k l.zipIdx = some i) :
    ∃ e, l[i]? = some e ∧ tie lt e k = true := by
  rw [mapFind_zipIdx_eq, List.findIdx?_eq_some_iff_getElem] at h
  obtain ⟨hi, h1, _⟩ := h
  exact ⟨l[i], List.getElem?_eq_getElem hi, h1⟩

theorem pairwise_getElem {R : κ → κ → Prop} (hR : ∀ a b, R a b → R b a) (l : List κ) (h : l.Pairwise R) (i j : Nat) (a b : κ)
    (ha : l[i]? = some a) (hb : l[j]? = some b) (hij : i ≠ j) : R a b := by
  rw [List.pairwise_iff_getElem] at h
  obtain ⟨hi, rfl⟩ := List.getElem?_eq_some_iff.1 ha
  obtain ⟨hj, rfl⟩ := List.getElem?_eq_some_iff.1 hb
  rcases Nat.lt_or_gt_of_ne hij with h' | h'
  · exact h i j hi hj h'
  · exact hR _ _ (h j i hj hi h')

end

variable {α : Type} [FP α] [FPOrd α]

abbrev eTie (a b : Edge α) : Bool := tie edgeOrder a b
def EOk (e : Edge α) : Prop := e.1.Ok ∧ e.2.Ok

theorem edgeKey_ok (a b : V3 α) (ha : a.Ok) (hb : b.Ok) : EOk (edgeKey a b) := by
  unfold edgeKey; split_ifs <;> exact ⟨by assumption, by assumption⟩

/-- a processed side: its ends and the number of its facet -/
abbrev Side (α : Type) := V3 α × V3 α × Nat
def Side.key (d : Side α) : Edge α := edgeKey d.1 d.2.1
def Side.Ok (d : Side α) : Prop := d.1.Ok ∧ d.2.1.Ok

structure IdxInv (done : List (Side α)) (s : IdxState α) : Prop where
  dd : s.dd = s.edges.zipIdx
  len : s.edgeFace.length = s.edges.length
  pw : s.edges.Pairwise (fun a b => eTie a b = false)
  src : ∀ e ∈ s.edges, ∃ d ∈ done, e = Side.key d
  all : ∀ d ∈ done, ∃ e ∈ s.edges, eTie e (Side.key d) = true
  faces : ∀ (k : Nat) (e : Edge α) (p : Nat × Nat), s.edges[k]? = some e → s.edgeFace[k]? = some p →
    ((done.filter (fun d => eTie e (Side.key d))).map (·.2.2)).head? = some p.1 ∧
    ((done.filter (fun d => eTie e (Side.key d))).map (·.2.2)).getLast? = some p.2

theorem addEdge_inv (done : List (Side α)) (s : IdxState α) (hd : ∀ d ∈ done, Side.Ok d) (d : Side α) (hok : Side.Ok d)
    (h : IdxInv done s) : IdxInv (done ++ [d]) (addEdge s d.1 d.2.1 d.2.2) := by
  have SW := edgeOrder_strictWeak (α := α)
  have kok : EOk (Side.key d) := edgeKey_ok _ _ hok.1 hok.2
  have dok : ∀ d ∈ done, EOk (Side.key d) := fun d hd' => edgeKey_ok _ _ (hd d hd').1 (hd d hd').2
  have eok : ∀ e ∈ s.edges, EOk e := by
    intro e he; obtain ⟨d', hd', rfl⟩ := h.src e he; exact dok d' hd'
  unfold addEdge
  dsimp only
  rw [h.dd]
  cases hf : mapFind edgeOrder (edgeKey d.1 d.2.1) s.edges.zipIdx with
  | none =>
    have hno : ∀ e ∈ s.edges, eTie e (Side.key d) = false := (mapFind_none _ _).1 hf
    dsimp only
    refine ⟨?_, ?_, ?_, ?_, ?_, ?_⟩
    · simp [List.zipIdx_append]
    · simp [h.len]
    · rw [List.pairwise_append]
      exact ⟨h.pw, by simp, fun a ha b hb => by simp at hb; subst hb; exact hno a ha⟩
    · intro e he
      rcases List.mem_append.1 he with he | he
      · obtain ⟨d', h1, h2⟩ := h.src e he; exact ⟨d', by simp [h1], h2⟩
      · simp at he; subst he; exact ⟨d, by simp, rfl⟩
    · intro d' hd'
      rcases List.mem_append.1 hd' with hd' | hd'
      · obtain ⟨e, h1, h2⟩ := h.all d' hd'; exact ⟨e, by simp [h1], h2⟩
      · simp at hd'; subst hd'
        exact ⟨Side.key d', by simp [Side.key], tie_refl SW _ kok⟩
    · intro k e p he hp
      by_cases hk : k < s.edges.length
      · rw [List.getElem?_append_left hk] at he
        rw [List.getElem?_append_left (by rw [h.len]; exact hk)] at hp
        have := h.faces k e p he hp
        have hne := hno e (List.mem_of_getElem? he)
        simpa [List.filter_append, hne] using this
      · rw [List.getElem?_append_right (by omega)] at he
        rw [List.getElem?_append_right (by rw [h.len]; omega), h.len] at hp
        have : k - s.edges.length = 0 := by
          by_contra h0
          rw [List.getElem?_singleton, if_neg h0] at he; simp at he
        rw [this] at he hp
        simp at he hp
        subst he; subst hp
        have hnil : done.filter (fun d' => eTie (edgeKey d.1 d.2.1) (Side.key d')) = [] := by
          rw [List.filter_eq_nil_iff]
          intro d' hd' hc
          obtain ⟨e, he, ht⟩ := h.all d' hd'
          have := tie_trans SW (eok e he) (dok d' hd') kok ht (by rw [tie_symm]; exact hc)
          exact absurd ((hno e he).symm.trans this) (by simp)
        have hself : eTie (edgeKey d.1 d.2.1) (Side.key d) = true := tie_refl SW _ kok
        simp [List.filter_append, hnil, hself]
  | some idx =>
    obtain ⟨e0, he0, ht0⟩ := mapFind_some _ _ _ hf
    dsimp only
    refine ⟨rfl, by simp [h.len], h.pw, ?_, ?_, ?_⟩
    · intro e he; obtain ⟨d', h1, h2⟩ := h.src e he; exact ⟨d', by simp [h1], h2⟩
    · intro d' hd'
      rcases List.mem_append.1 hd' with hd' | hd'
      · exact h.all d' hd'
      · simp at hd'; subst hd'
        exact ⟨e0, List.mem_of_getElem? he0, ht0⟩
    · intro k e p he hp
      rw [List.getElem?_modify] at hp
      by_cases hk : idx = k
      · subst hk
        rw [he0] at he; injection he with he; subst he
        simp only [if_true] at hp
        cases hq : s.edgeFace[idx]? with
        | none => rw [hq] at hp; simp at hp
        | some q =>
          rw [hq] at hp; simp at hp; subst hp
          have := h.faces idx e0 q he0 hq
          have ht : eTie e0 (Side.key d) = true := ht0
          simp only [List.filter_append, List.filter_cons, ht, if_true, List.filter_nil, List.map_append, List.map_cons,
            List.map_nil]
          refine ⟨?_, by simp⟩
          rw [List.head?_append, this.1]; rfl
      · simp only [if_neg hk] at hp
        have hp : s.edgeFace[k]? = some p := by simpa using hp
        have := h.faces k e p he hp
        have hne : eTie e (Side.key d) = false := by
          by_contra hc
          have hc : eTie e (Side.key d) = true := by simpa using hc
          have hee0 := tie_trans SW (eok e (List.mem_of_getElem? he)) kok (eok e0 (List.mem_of_getElem? he0)) hc
            (by rw [tie_symm]; exact ht0)
          have := pairwise_getElem (fun a b hab => by
            show eTie b a = false
            rw [show eTie b a = eTie a b from tie_symm _ _ _]; exact hab) _ h.pw k idx e e0 he he0 (Ne.symm hk)
          exact absurd (hee0.symm.trans this) (by simp)
        simpa [List.filter_append, hne] using this

/-- all sides in the order `Index` visits them -/
def sidesFrom (fs : List (Facet α)) (n : Nat) : List (Side α) :=
  (fs.zipIdx n).flatMap fun p => [(p.1.e0, p.1.e1, p.2), (p.1.e1, p.1.e2, p.2), (p.1.e2, p.1.e0, p.2)]

theorem foldl_addEdge_inv (ds : List (Side α)) : ∀ (done : List (Side α)) (s : IdxState α), (∀ d ∈ done, Side.Ok d) →
    (∀ d ∈ ds, Side.Ok d) → IdxInv done s →
    IdxInv (done ++ ds) (ds.foldl (fun s d => addEdge s d.1 d.2.1 d.2.2) s) := by
  induction ds with
  | nil => intro done s _ _ h; simpa using h
  | cons d ds ih =>
    intro done s hd hds h
    have hdo := hds d (by simp)
    have := ih (done ++ [d]) _ (by
      intro x hx
      rcases List.mem_append.1 hx with hx | hx
      · exact hd x hx
      · simp at hx; subst hx; exact hdo) (fun x hx => hds x (by simp [hx])) (addEdge_inv done s hd d hdo h)
    simpa using this

theorem addFacets_eq (fs : List (Facet α)) :
    addFacets fs = (sidesFrom fs 0).foldl (fun s d => addEdge s d.1 d.2.1 d.2.2) ⟨[], [], []⟩ := by
  unfold addFacets sidesFrom
  rw [List.foldl_flatMap]
  rfl

theorem addFacets_inv (fs : List (Facet α)) (h : ∀ d ∈ sidesFrom fs 0, Side.Ok d) : IdxInv (sidesFrom fs 0) (addFacets fs) := by
  have h0 : IdxInv ([] : List (Side α)) ⟨[], [], []⟩ := ⟨rfl, rfl, by simp, by simp, by simp, by simp⟩
  have := foldl_addEdge_inv (sidesFrom fs 0) [] _ (by simp) h h0
  rw [addFacets_eq]; simpa using this

/-! ## The partition loop -/

theorem zip_swapAt {β γ : Type} (a : List β) (b : List γ) (i j : Nat) (hl : a.length = b.length) (hi : i < a.length)
    (hj : j < a.length) : (swapAt a i j).zip (swapAt b i j) = swapAt (a.zip b) i j := by
  apply List.ext_getElem?
  intro k
  rw [swapAt_getElem? _ _ _ _ (by simp [← hl]; exact hi) (by simp [← hl]; exact hj)]
  simp only [List.zip, List.getElem?_zipWith]
  rw [swapAt_getElem? a _ _ _ hi hj, swapAt_getElem? b _ _ _ (by rw [← hl]; exact hi) (by rw [← hl]; exact hj)]
  split_ifs <;> rfl

theorem partLoop_spec (facets : List (Facet α)) : ∀ (n : Nat) (edges : List (Edge α)) (ef : List (Nat × Nat)) (i u : Nat),
    u - i = n → i ≤ u → u ≤ edges.length → ef.length = edges.length →
    (∀ k p, k < i → ef[k]? = some p → smooth facets p = false) →
    (∀ k p, u ≤ k → ef[k]? = some p → smooth facets p = true) →
    ∃ ef' : List (Nat × Nat), ((partLoop facets edges ef i u).1.zip ef').Perm (edges.zip ef) ∧
      (partLoop facets edges ef i u).1.Perm edges ∧
      ef'.length = (partLoop facets edges ef i u).1.length ∧
      (partLoop facets edges ef i u).2 ≤ (partLoop facets edges ef i u).1.length ∧
      ∀ k p, ef'[k]? = some p → (k < (partLoop facets edges ef i u).2 ↔ smooth facets p = false) := by
  intro n
  induction n with
  | zero =>
    intro edges ef i u hn hiu hu hl h1 h2
    rw [partLoop, if_neg (by omega)]
    refine ⟨ef, List.Perm.refl _, List.Perm.refl _, hl, hu, ?_⟩
    intro k p hk
    have : i = u := by omega
    subst this
    constructor
    · intro hlt; exact h1 k p hlt hk
    · intro hs
      by_contra hge
      have := h2 k p (by omega) hk
      rw [hs] at this; simp at this
  | succ n ih =>
    intro edges ef i u hn hiu hu hl h1 h2
    have hlt : i < u := by omega
    have hi : i < ef.length := by omega
    rw [partLoop, if_pos hlt, List.getElem?_eq_getElem hi]
    dsimp only
    split
    · rename_i hsm
      obtain ⟨ef', a1, a0, a2, a3, a4⟩ := ih (swapAt edges i (u - 1)) (swapAt ef i (u - 1)) i (u - 1) (by omega) (by omega)
        (by rw [swapAt_length]; omega) (by simp [swapAt_length, hl])
        (by
          intro k p hk hp
          rw [swapAt_getElem? _ _ _ _ hi (by omega), if_neg (by omega), if_neg (by omega)] at hp
          exact h1 k p hk hp)
        (by
          intro k p hk hp
          rw [swapAt_getElem? _ _ _ _ hi (by omega)] at hp
          split_ifs at hp with c1 c2
          · rw [List.getElem?_eq_getElem hi] at hp; injection hp with hp; subst hp; exact hsm
          · exact absurd c2 (by omega)
          · exact h2 k p (by omega) hp)
      refine ⟨ef', a1.trans ?_, a0.trans (swapAt_perm _ _ _), a2, a3, a4⟩
      rw [zip_swapAt _ _ _ _ hl.symm (by omega) (by omega)]
      exact swapAt_perm _ _ _
    · rename_i hsm
      refine ih edges ef (i + 1) u (by omega) (by omega) hu hl ?_ h2
      intro k p hk hp
      by_cases hki : k = i
      · subst hki
        rw [List.getElem?_eq_getElem hi] at hp; injection hp with hp; subst hp; simpa using hsm
      · exact h1 k p (by omega) hp

theorem mapAssign_new {κ β : Type} (lt : κ → κ → Bool) (k : κ) (v : β) (m : List (κ × β)) (h : mapFind lt k m = none) :
    mapAssign lt k v m = m ++ [(k, v)] := by simp [mapAssign, h]

theorem rebuildDD_eq (edges : List (Edge α)) (h : edges.Pairwise (fun a b => eTie a b = false)) :
    rebuildDD edges = edges.zipIdx := by
  have key : ∀ (l pre : List (Edge α)), (pre ++ l).Pairwise (fun a b => eTie a b = false) →
      (l.zipIdx pre.length).foldl (fun m p => mapAssign edgeOrder p.1 p.2 m) pre.zipIdx = (pre ++ l).zipIdx := by
    intro l
    induction l with
    | nil => intro pre _; simp
    | cons a l ih =>
      intro pre hp
      have hn : mapFind edgeOrder a pre.zipIdx = none := by
        rw [mapFind_none]
        intro e he
        rw [List.pairwise_append] at hp
        exact hp.2.2 e he a (by simp)
      rw [List.zipIdx_cons, List.foldl_cons]
      dsimp only
      rw [mapAssign_new _ _ _ _ hn]
      have := ih (pre ++ [a]) (by simpa using hp)
      simp only [List.length_append, List.length_cons, List.length_nil, List.zipIdx_append, List.zipIdx_singleton,
        List.append_assoc, List.singleton_append] at this
      rw [Nat.zero_add, Nat.zero_add] at this
      simp only [List.zipIdx_append, List.zipIdx_cons, Nat.zero_add]
      simpa using this
  have := key edges [] (by simpa using h)
  simpa [rebuildDD] using this

end S2P

namespace S2P
variable {α : Type} [FP α] [FPOrd α]

section
variable {κ : Type} {P : κ → Prop} {lt : κ → κ → Bool}
theorem StrictWeak.congr (hs : StrictWeak P lt) {a b c d : κ} (ha : P a) (hb : P b) (hc : P c) (hd : P d)
    (h1 : tie lt a c = true) (h2 : tie lt b d = true) : lt a b = lt c d := by
  have key : ∀ a b c d, P a → P b → P c → P d → tie lt a c = true → tie lt b d = true → lt a b = true → lt c d = true := by
    intro a b c d ha hb hc hd h1 h2 h
    rw [tie_iff] at h1 h2
    -- c < b
    have hcb : lt c b = true := by
      by_contra h'
      have h' : lt c b = false := by simpa using h'
      cases hbc : lt b c
      · have := hs.incomp a c b ha hc hb h1.1 h1.2 h' hbc
        rw [h] at this; simp at this
      · have := hs.trans a b c ha hb hc h hbc
        rw [h1.1] at this; simp at this
    by_contra h'
    have h' : lt c d = false := by simpa using h'
    cases hdc : lt d c
    · have := hs.incomp c d b hc hd hb h' hdc h2.2 h2.1
      rw [hcb] at this; simp at this
    · have := hs.trans d c b hd hc hb hdc hcb
      rw [h2.2] at this; simp at this
  cases h : lt a b
  · cases h' : lt c d
    · rfl
    · have := key c d a b hc hd ha hb (by rw [tie_symm]; exact h1) (by rw [tie_symm]; exact h2) h'
      rw [h] at this; simp at this
  · exact (key a b c d ha hb hc hd h1 h2 h).symm
end

theorem samePt_iff (a b : V3 α) (ha : a.Ok) (hb : b.Ok) : SamePt a b ↔ tie order a b = true := by
  rw [tie_iff, order_tie a b ha hb]; simp [SamePt, V3.eqv, and_assoc]

theorem eTie_iff (a b : Edge α) (ha : EOk a) (hb : EOk b) :
    eTie a b = true ↔ tie order a.1 b.1 = true ∧ tie order a.2 b.2 = true := by
  show tie edgeOrder a b = true ↔ _
  rw [tie_iff, edgeOrder_tie a b ha hb, tie_iff, tie_iff, order_tie _ _ ha.1 hb.1, order_tie _ _ ha.2 hb.2]

theorem edgeKey_norm (a b : V3 α) (ha : a.Ok) (hb : b.Ok) : order (edgeKey a b).2 (edgeKey a b).1 = false := by
  unfold edgeKey
  split_ifs with h
  · exact order_strictWeak.asymm ha hb h
  · simpa using h

theorem eTie_key_iff (e : Edge α) (c d : V3 α) (he : EOk e) (hn : order e.2 e.1 = false) (hc : c.Ok) (hd : d.Ok) :
    eTie e (edgeKey c d) = true ↔ SameEdge e c d := by
  have SW := order_strictWeak (α := α)
  rw [eTie_iff _ _ he (edgeKey_ok _ _ hc hd)]
  unfold SameEdge
  rw [samePt_iff _ _ he.1 hc, samePt_iff _ _ he.2 hd, samePt_iff _ _ he.1 hd, samePt_iff _ _ he.2 hc]
  unfold edgeKey
  split_ifs with h
  · refine ⟨Or.inl, ?_⟩
    rintro (h' | ⟨h1, h2⟩)
    · exact h'
    · have := SW.congr he.2 he.1 hc hd h2 h1
      rw [hn, h] at this; simp at this
  · refine ⟨Or.inr, ?_⟩
    rintro (⟨h1, h2⟩ | h')
    · have h : order c d = false := by simpa using h
      have hxy := SW.congr he.1 he.2 hc hd h1 h2
      rw [h] at hxy
      have hxy : tie order e.1 e.2 = true := by rw [tie_iff]; exact ⟨hxy, hn⟩
      exact ⟨tie_trans SW he.1 he.2 hd hxy h2, tie_trans SW he.2 he.1 hc (by rw [tie_symm]; exact hxy) h1⟩
    · exact h'

theorem mem_sidesFrom (fs : List (Facet α)) (n : Nat) (d : Side α) :
    d ∈ sidesFrom fs n ↔ ∃ (i : Nat) (f : Facet α), fs[i]? = some f ∧ (d.1, d.2.1) ∈ sidesOf f ∧ d.2.2 = n + i := by
  unfold sidesFrom
  rw [List.mem_flatMap]
  constructor
  · rintro ⟨⟨f, k⟩, h1, h2⟩
    rw [List.mem_zipIdx_iff_le_and_getElem?_sub] at h1
    refine ⟨k - n, f, h1.2, ?_, ?_⟩
    · simp only [List.mem_cons, List.not_mem_nil, or_false] at h2
      rcases h2 with rfl | rfl | rfl <;> simp [sidesOf]
    · simp only [List.mem_cons, List.not_mem_nil, or_false] at h2
      have := h1.1
      rcases h2 with rfl | rfl | rfl <;> simp at this ⊢ <;> omega
  · rintro ⟨i, f, h1, h2, h3⟩
    refine ⟨(f, n + i), ?_, ?_⟩
    · rw [List.mem_zipIdx_iff_le_and_getElem?_sub]
      simpa using h1
    · obtain ⟨a, b, k⟩ := d
      simp only at h3; subst h3
      simp only [sidesOf, List.mem_cons, List.not_mem_nil, or_false, Prod.mk.injEq] at h2 ⊢
      rcases h2 with h | h | h <;> simp [h]

theorem sidesFrom_sorted (fs : List (Facet α)) : ∀ n, (sidesFrom fs n).Pairwise (fun a b => a.2.2 ≤ b.2.2) := by
  induction fs with
  | nil => intro n; simp [sidesFrom]
  | cons f fs ih =>
    intro n
    have h1 : sidesFrom (f :: fs) n = [(f.e0, f.e1, n), (f.e1, f.e2, n), (f.e2, f.e0, n)] ++ sidesFrom fs (n + 1) := by
      simp [sidesFrom]
    rw [h1, List.pairwise_append]
    refine ⟨by simp, ih (n + 1), ?_⟩
    intro a ha b hb
    obtain ⟨i, g, _, _, h⟩ := (mem_sidesFrom fs (n + 1) b).1 hb
    simp only [List.mem_cons, List.not_mem_nil, or_false] at ha
    rcases ha with rfl | rfl | rfl <;> simp only [h] <;> omega

theorem sidesFrom_ok (fs : List (Facet α)) (h : ∀ f ∈ fs, Facet.Ok f) : ∀ d ∈ sidesFrom fs 0, Side.Ok d := by
  intro d hd
  obtain ⟨i, f, h1, h2, _⟩ := (mem_sidesFrom fs 0 d).1 hd
  have := h f (List.mem_of_getElem? h1)
  simp only [sidesOf, List.mem_cons, List.not_mem_nil, or_false, Prod.mk.injEq] at h2
  rcases h2 with ⟨a, b⟩ | ⟨a, b⟩ | ⟨a, b⟩ <;> simp only [Side.Ok, a, b]
  · exact ⟨this.1, this.2.1⟩
  · exact ⟨this.2.1, this.2.2⟩
  · exact ⟨this.2.2, this.1⟩

theorem pairwise_perm {β : Type} {R : β → β → Prop} (hR : ∀ a b, R a b → R b a) {l l' : List β} (h : l.Perm l')
    (hp : l.Pairwise R) : l'.Pairwise R := (h.pairwise_iff (fun {a b} => hR a b)).1 hp

/-- everything about `index`, with the internal data of its proof -/
theorem index_spec (fs : List (Facet α)) (h : ∀ f ∈ fs, Facet.Ok f) :
    ∃ s ef, index fs = .ok s ∧ s.facets = fs ∧ s.edges.Perm (addFacets fs).edges ∧ s.unseen ≤ s.edges.length ∧
      ef.length = s.edges.length ∧ (s.edges.zip ef).Perm ((addFacets fs).edges.zip (addFacets fs).edgeFace) ∧
      (∀ (k : Nat) p, ef[k]? = some p → (k < s.unseen ↔ smooth fs p = false)) ∧
      s.faceEdge.length = fs.length ∧
      (∀ (i : Nat) (f : Facet α) (t : Nat × Nat × Nat), fs[i]? = some f → s.faceEdge[i]? = some t →
        (∃ e, s.edges[t.1]? = some e ∧ eTie e (edgeKey f.e0 f.e1) = true) ∧
        (∃ e, s.edges[t.2.1]? = some e ∧ eTie e (edgeKey f.e1 f.e2) = true) ∧
        (∃ e, s.edges[t.2.2]? = some e ∧ eTie e (edgeKey f.e2 f.e0) = true)) := by
  have inv := addFacets_inv fs (sidesFrom_ok fs h)
  obtain ⟨ef, p1, p0, p2, p3, p4⟩ := partLoop_spec fs _ (addFacets fs).edges (addFacets fs).edgeFace 0
    (addFacets fs).edges.length rfl (Nat.zero_le _) (le_refl _) inv.len (by intro k p hk; omega)
    (by
      intro k p hk hp
      have := (List.getElem?_eq_some_iff.1 hp).1
      rw [inv.len] at this; omega)
  generalize hE : (partLoop fs (addFacets fs).edges (addFacets fs).edgeFace 0 (addFacets fs).edges.length) = PL at *
  obtain ⟨edges, unseen⟩ := PL
  dsimp only at p1 p0 p2 p3 p4
  have hpw : edges.Pairwise (fun a b => eTie a b = false) :=
    pairwise_perm (fun a b hab => by rw [show eTie b a = eTie a b from tie_symm _ _ _]; exact hab) p0.symm inv.pw
  have hdd := rebuildDD_eq edges hpw
  have find : ∀ (f : Facet α), f ∈ fs → ∀ sd ∈ sidesOf f, ∃ i e, findEdge (rebuildDD edges) sd.1 sd.2 = .ok i ∧
      edges[i]? = some e ∧ eTie e (edgeKey sd.1 sd.2) = true := by
    intro f hf sd hsd
    obtain ⟨i, hi⟩ := List.getElem?_of_mem hf
    obtain ⟨e, he, ht⟩ := inv.all (sd.1, sd.2, 0 + i) ((mem_sidesFrom fs 0 _).2 ⟨i, f, hi, hsd, rfl⟩)
    unfold findEdge
    rw [hdd]
    cases hm : mapFind edgeOrder (edgeKey sd.1 sd.2) edges.zipIdx with
    | none =>
      have := (mapFind_none _ _).1 hm e (p0.mem_iff.2 he)
      exact absurd (this.symm.trans ht) (by simp)
    | some j =>
      obtain ⟨e', he', ht'⟩ := mapFind_some _ _ _ hm
      exact ⟨j, e', rfl, he', ht'⟩
  have face : ∀ f ∈ fs, ∃ t, faceEdges (rebuildDD edges) f = .ok t ∧
        (∃ e, edges[t.1]? = some e ∧ eTie e (edgeKey f.e0 f.e1) = true) ∧
        (∃ e, edges[t.2.1]? = some e ∧ eTie e (edgeKey f.e1 f.e2) = true) ∧
        (∃ e, edges[t.2.2]? = some e ∧ eTie e (edgeKey f.e2 f.e0) = true) := by
    intro f hf
    obtain ⟨a, ea, h1, h2, h3⟩ := find f hf (f.e0, f.e1) (by simp [sidesOf])
    obtain ⟨b, eb, h4, h5, h6⟩ := find f hf (f.e1, f.e2) (by simp [sidesOf])
    obtain ⟨c, ec, h7, h8, h9⟩ := find f hf (f.e2, f.e0) (by simp [sidesOf])
    refine ⟨(a, b, c), ?_, ⟨ea, h2, h3⟩, ⟨eb, h5, h6⟩, ⟨ec, h8, h9⟩⟩
    unfold faceEdges
    dsimp only at h1 h4 h7
    rw [h1, h4, h7]; rfl
  obtain ⟨fe, hfe⟩ := mapM_except_total (faceEdges (rebuildDD edges)) fs (fun f hf => by
    obtain ⟨t, ht, _⟩ := face f hf; exact ⟨t, ht⟩)
  have hall := mapM_except_forall _ _ _ hfe
  refine ⟨⟨fs, edges, fe, unseen⟩, ef, ?_, rfl, p0, p3, p2, p1, p4, hall.length_eq.symm, ?_⟩
  · unfold index
    dsimp only
    rw [hE]
    dsimp only
    rw [hfe]; rfl
  · intro i f t hf ht
    have hlt := (List.getElem?_eq_some_iff.1 hf).1
    have := List.forall₂_iff_get.1 hall
    have h2 := this.2 i hlt (List.getElem?_eq_some_iff.1 ht).1
    obtain ⟨t', ht', H⟩ := face f (List.mem_of_getElem? hf)
    rw [List.get_eq_getElem, List.get_eq_getElem, (List.getElem?_eq_some_iff.1 hf).2, (List.getElem?_eq_some_iff.1 ht).2, ht'] at h2
    injection h2 with h2; subst h2
    exact H

end S2P
