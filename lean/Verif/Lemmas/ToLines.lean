import Verif.Lemmas.Spans
import Verif.Lemmas.Order

set_option linter.unusedSectionVars false
set_option linter.unusedVariables false

namespace S2P

theorem exists_map_of_forall {β γ : Type} (g : γ → β) (P : γ → Prop) (l : List β) (h : ∀ x ∈ l, ∃ c, x = g c ∧ P c) :
    ∃ l' : List γ, l = l'.map g ∧ ∀ c ∈ l', P c := by
  induction l with
  | nil => exact ⟨[], rfl, by simp⟩
  | cons x l ih =>
    obtain ⟨l', h1, h2⟩ := ih (fun y hy => h y (by simp [hy]))
    obtain ⟨c, hc, hp⟩ := h x (by simp)
    exact ⟨c :: l', by simp [h1, hc], by simpa [hp] using h2⟩

section any
variable {α : Type} [FP α]

/-- the crossing with table entry `n` -/
def crossPt (cs : List (Nat × V3 α)) (e : Edge α) (n : Nat) : List (V3 α × α) :=
  match cs.find? (fun c => c.1 == n) with
  | some c => [(c.2, (e.1 - c.2).sqNorm)]
  | none => []

/-- all candidate points -/
def candList (cs : List (Nat × V3 α)) (e : Edge α) (f : Facet α) (el : Nat × Nat × Nat) : List (V3 α × α) :=
  (if behind f e.1 then [(e.1, FP.lit 0)] else []) ++ (if behind f e.2 then [(e.2, (e.1 - e.2).sqNorm)] else []) ++
    crossPt cs e el.1 ++ crossPt cs e el.2.1 ++ crossPt cs e el.2.2

theorem crossPt_length (cs : List (Nat × V3 α)) (e : Edge α) (n : Nat) : (crossPt cs e n).length ≤ 1 := by
  unfold crossPt; split <;> simp

theorem candList_length (cs : List (Nat × V3 α)) (e : Edge α) (f : Facet α) (el : Nat × Nat × Nat) :
    (candList cs e f el).length ≤ 5 := by
  have h1 := crossPt_length cs e el.1
  have h2 := crossPt_length cs e el.2.1
  have h3 := crossPt_length cs e el.2.2
  unfold candList
  simp only [List.length_append]
  split_ifs <;> simp <;> omega

/-- the buffer of five is never overrun -/
theorem hiddenPoints_eq (cs : List (Nat × V3 α)) (e : Edge α) (f : Facet α) (el : Nat × Nat × Nat) :
    hiddenPoints cs e f el = .ok (candList cs e f el) := by
  unfold hiddenPoints candList crossPt
  by_cases h1 : behind f e.1 = true <;> by_cases h2 : behind f e.2 = true <;>
    rcases hc1 : cs.find? (fun c => c.1 == el.1) with _ | c1 <;>
    rcases hc2 : cs.find? (fun c => c.1 == el.2.1) with _ | c2 <;>
    rcases hc3 : cs.find? (fun c => c.1 == el.2.2) with _ | c3 <;>
    simp [h1, h2, hc1, hc2, hc3, pushPt, bind, Except.bind, pure, Except.pure, List.foldlM]

theorem find_key (cs : List (Nat × V3 α)) (hk : cs.Pairwise (fun a b => a.1 ≠ b.1)) (n : Nat) (c : Nat × V3 α) :
    cs.find? (fun c => c.1 == n) = some c ↔ c ∈ cs ∧ c.1 = n := by
  induction cs with
  | nil => simp
  | cons d cs ih =>
    rw [List.pairwise_cons] at hk
    rw [List.find?_cons]
    by_cases hd : d.1 = n
    · simp only [hd, beq_self_eq_true, Option.some.injEq]
      constructor
      · rintro rfl; simp [hd]
      · rintro ⟨hm, hc⟩
        rcases List.mem_cons.1 hm with rfl | hm
        · rfl
        · exact absurd (hd.trans hc.symm) (hk.1 c hm)
    · simp only [beq_eq_false_iff_ne.2 hd]
      rw [ih hk.2]
      constructor
      · rintro ⟨h1, h2⟩; exact ⟨by simp [h1], h2⟩
      · rintro ⟨h1, h2⟩
        rcases List.mem_cons.1 h1 with rfl | h1
        · exact absurd h2 hd
        · exact ⟨h1, h2⟩

theorem mem_crossPt (cs : List (Nat × V3 α)) (hk : cs.Pairwise (fun a b => a.1 ≠ b.1)) (e : Edge α) (n : Nat) (x : V3 α × α) :
    x ∈ crossPt cs e n ↔ ∃ c ∈ cs, c.1 = n ∧ x = (c.2, (e.1 - c.2).sqNorm) := by
  unfold crossPt
  constructor
  · intro h
    split at h
    · rename_i c hc
      simp at h
      exact ⟨c, ((find_key cs hk n c).1 hc).1, ((find_key cs hk n c).1 hc).2, h⟩
    · simp at h
  · rintro ⟨c, hc, hn, rfl⟩
    rw [(find_key cs hk n c).2 ⟨hc, hn⟩]; simp

end any

variable {K : Type} [Field K] [LinearOrder K] [IsStrictOrderedRing K] [FloorRing K] [Trans K]

/-- a candidate point with its stored distance -/
def candPt (e : Edge K) (t : K) : V3 (Ext K) × Ext K := ((edgeAt e t).fin, Ext.fin (t * t * edgeLen2 e))

/-- `t` is the parameter of a candidate point of edge `e` for a face -/
def Cand (cs : List (Nat × V3 (Ext K))) (e : Edge K) (f : Facet (Ext K)) (el : Nat × Nat × Nat) (t : K) : Prop :=
  0 ≤ t ∧ t ≤ 1 ∧ ((t = 0 ∧ behind f e.1.fin = true) ∨ (t = 1 ∧ behind f e.2.fin = true) ∨
    ∃ c ∈ cs, (c.1 = el.1 ∨ c.1 = el.2.1 ∨ c.1 = el.2.2) ∧ c.2 = (edgeAt e t).fin)

/-- every recorded crossing lies on the edge -/
def OnEdge (cs : List (Nat × V3 (Ext K))) (e : Edge K) : Prop := ∀ c ∈ cs, ∃ t, 0 ≤ t ∧ t ≤ 1 ∧ c.2 = (edgeAt e t).fin

theorem dist_one (e : Edge K) : (e.1.fin - e.2.fin).sqNorm = Ext.fin (1 * 1 * edgeLen2 e) := by
  have := dist_fin e 1
  rwa [edgeAt_one] at this

theorem mem_candList (cs : List (Nat × V3 (Ext K))) (hk : cs.Pairwise (fun a b => a.1 ≠ b.1)) (e : Edge K) (ho : OnEdge cs e)
    (f : Facet (Ext K)) (el : Nat × Nat × Nat) (x : V3 (Ext K) × Ext K) :
    x ∈ candList cs e.fin f el ↔ ∃ t, Cand cs e f el t ∧ x = candPt e t := by
  unfold candList
  simp only [List.mem_append, mem_crossPt cs hk]
  constructor
  · have hcr : ∀ n, (n = el.1 ∨ n = el.2.1 ∨ n = el.2.2) → (∃ c ∈ cs, c.1 = n ∧ x = (c.2, (e.fin.1 - c.2).sqNorm)) →
        ∃ t, Cand cs e f el t ∧ x = candPt e t := by
      rintro n hn ⟨c, hc, hcn, rfl⟩
      obtain ⟨t, t0, t1, ht⟩ := ho c hc
      refine ⟨t, ⟨t0, t1, Or.inr (Or.inr ⟨c, hc, by rw [hcn]; exact hn, ht⟩)⟩, ?_⟩
      rw [ht, dist_fin]; rfl
    rintro ((((h | h) | h) | h) | h)
    · split_ifs at h with hb
      · simp at h; subst h
        exact ⟨0, ⟨le_refl _, zero_le_one, Or.inl ⟨rfl, hb⟩⟩, by simp [candPt]⟩
      · simp at h
    · split_ifs at h with hb
      · simp only [List.mem_cons, List.not_mem_nil, or_false] at h; subst h
        exact ⟨1, ⟨zero_le_one, le_refl _, Or.inr (Or.inl ⟨rfl, hb⟩)⟩, by rw [dist_one]; simp [candPt]⟩
      · simp at h
    · exact hcr _ (Or.inl rfl) h
    · exact hcr _ (Or.inr (Or.inl rfl)) h
    · exact hcr _ (Or.inr (Or.inr rfl)) h
  · rintro ⟨t, ⟨t0, t1, h⟩, rfl⟩
    rcases h with ⟨rfl, hb⟩ | ⟨rfl, hb⟩ | ⟨c, hc, hn, hct⟩
    · left; left; left; left; rw [if_pos hb]; simp [candPt]
    · left; left; left; right; rw [if_pos hb, dist_one]; simp [candPt]
    · have : candPt e t = (c.2, (e.fin.1 - c.2).sqNorm) := by rw [hct, dist_fin]; rfl
      rcases hn with hn | hn | hn
      · left; left; right; exact ⟨c, hc, hn, this⟩
      · left; right; exact ⟨c, hc, hn, this⟩
      · right; exact ⟨c, hc, hn, this⟩

/-- the span of a face: the extreme candidates -/
structure FaceSpan (cs : List (Nat × V3 (Ext K))) (e : Edge K) (f : Facet (Ext K)) (el : Nat × Nat × Nat) (s : K × K) : Prop where
  lo : Cand cs e f el s.1
  hi : Cand cs e f el s.2
  lt : s.1 < s.2
  all : ∀ t, Cand cs e f el t → s.1 ≤ t ∧ t ≤ s.2

theorem pairwise_head_last {β : Type} (R : β → β → Prop) (hr : ∀ x, R x x) (l : List β) (h : l.Pairwise R) (a b : β)
    (ha : l.head? = some a) (hb : l.getLast? = some b) : ∀ x ∈ l, R a x ∧ R x b := by
  intro x hx
  obtain ⟨i, hi⟩ := List.getElem?_of_mem hx
  obtain ⟨ai, bi⟩ := List.getElem?_eq_some_iff.1 hi
  rw [List.head?_eq_getElem?] at ha
  rw [List.getLast?_eq_getElem?] at hb
  obtain ⟨a0, b0⟩ := List.getElem?_eq_some_iff.1 ha
  obtain ⟨al, bl⟩ := List.getElem?_eq_some_iff.1 hb
  rw [List.pairwise_iff_getElem] at h
  constructor
  · rcases Nat.eq_zero_or_pos i with rfl | hpos
    · rw [← b0, ← bi]; exact hr _
    · have := h 0 i a0 ai hpos; rw [b0, bi] at this; exact this
  · rcases Nat.lt_or_ge i (l.length - 1) with hlt | hge
    · have := h i _ ai al hlt; rw [bl, bi] at this; exact this
    · have : i = l.length - 1 := by omega
      subst this; rw [← bl, ← bi]; exact hr _

theorem faceHides_spec (S : Sorter) (hS : SortOK S) (cs : List (Nat × V3 (Ext K))) (hk : cs.Pairwise (fun a b => a.1 ≠ b.1))
    (v : Nat) (e : Edge K) (hne : e.1 ≠ e.2) (ho : OnEdge cs e) (f : Facet (Ext K)) (el : Nat × Nat × Nat) :
    ((v = el.1 ∨ v = el.2.1 ∨ v = el.2.2) ∧ faceHides S cs v e.fin f el = .ok none) ∨
    (¬(v = el.1 ∨ v = el.2.1 ∨ v = el.2.2) ∧ ∃ s, FaceSpan cs e f el s ∧ faceHides S cs v e.fin f el = .ok (some (spanPts e s))) ∨
    (¬(v = el.1 ∨ v = el.2.1 ∨ v = el.2.2) ∧ (∀ t t', Cand cs e f el t → Cand cs e f el t' → t = t') ∧
      faceHides S cs v e.fin f el = .ok none) := by
  have hL := edgeLen2_pos e hne
  by_cases hv : v = el.1 ∨ v = el.2.1 ∨ v = el.2.2
  · left
    refine ⟨hv, ?_⟩
    unfold faceHides
    rw [if_pos hv]; rfl
  · right
    have hmem := mem_candList cs hk e ho f el
    unfold faceHides
    rw [if_neg hv, hiddenPoints_eq]
    dsimp only [bind, Except.bind, pure, Except.pure]
    by_cases hlen : (candList cs e.fin f el).length < 2
    · right
      rw [if_pos hlen]
      refine ⟨hv, ?_, rfl⟩
      intro t t' ht ht'
      have h1 := (hmem (candPt e t)).2 ⟨t, ht, rfl⟩
      have h2 := (hmem (candPt e t')).2 ⟨t', ht', rfl⟩
      have : candPt e t = candPt e t' := by
        rcases hcl : candList cs e.fin f el with _ | ⟨a, _ | ⟨b, l⟩⟩
        · rw [hcl] at h1; simp at h1
        · rw [hcl] at h1 h2; simp at h1 h2; rw [h1, h2]
        · rw [hcl] at hlen; simp at hlen
      simp only [candPt, Prod.mk.injEq] at this
      exact edgeAt_inj e hne t t' ((V3.fin_injective _ _).1 this.1)
    · rw [if_neg hlen]
      have hperm := hS.perm (fun l r : V3 (Ext K) × Ext K => FP.lt l.2 r.2) (candList cs e.fin f el)
      have hsort := hS.sorted (fun l r : V3 (Ext K) × Ext K => FP.lt l.2 r.2) (candList cs e.fin f el)
        (strictWeak_key _ (fun x : V3 (Ext K) × Ext K => x.2) (by
          intro a ha
          obtain ⟨t, _, rfl⟩ := (hmem a).1 ha
          exact Ext.ok_fin _))
      generalize S.sort (fun l r : V3 (Ext K) × Ext K => FP.lt l.2 r.2) (candList cs e.fin f el) = sorted at hperm hsort
      have hlen2 : 2 ≤ sorted.length := by rw [hperm.length_eq]; omega
      rcases hh : sorted.head? with _ | a
      · cases sorted <;> simp at hh hlen2
      rcases hl : sorted.getLast? with _ | b
      · cases sorted <;> simp at hl hlen2
      dsimp only
      obtain ⟨ta, hta, ea⟩ := (hmem a).1 (hperm.mem_iff.1 (List.mem_of_mem_head? hh))
      obtain ⟨tb, htb, eb⟩ := (hmem b).1 (hperm.mem_iff.1 (List.mem_of_mem_getLast? hl))
      have hall : ∀ t, Cand cs e f el t → ta ≤ t ∧ t ≤ tb := by
        intro t ht
        have hx := hperm.mem_iff.2 ((hmem (candPt e t)).2 ⟨t, ht, rfl⟩)
        have := pairwise_head_last (fun a b : V3 (Ext K) × Ext K => FP.lt b.2 a.2 = false) (fun x => FPOrd.lt_irrefl _) sorted hsort a b hh hl _ hx
        rw [ea, eb] at this
        simp only [candPt, Ext.fin_lt, decide_eq_false_iff_not, sq_lt_iff _ hL _ _ ht.1 hta.1, sq_lt_iff _ hL _ _ htb.1 ht.1, not_lt] at this
        exact this
      have hab := (hall tb htb).1
      have hd : (a.1 - b.1).sqNorm = Ext.fin ((ta - tb) * (ta - tb) * edgeLen2 e) := by
        rw [ea, eb]; simp only [candPt]; rw [V3.fin_sub, V3.fin_sqNorm, edgeAt_dist]
      rw [hd]
      have hle : FP.le a.2 b.2 = true := by
        rw [ea, eb]; simp only [candPt, Ext.fin_le, decide_eq_true_eq, sq_le_iff _ hL _ _ hta.1 htb.1]; exact hab
      by_cases heq : ta = tb
      · right
        refine ⟨hv, ?_, ?_⟩
        · intro t t' ht ht'
          have h1 := hall t ht
          have h2 := hall t' ht'
          rw [heq] at h1 h2
          exact (le_antisymm h1.2 h1.1).trans (le_antisymm h2.1 h2.2)
        · rw [if_pos (by rw [heq]; simp)]
      · left
        refine ⟨hv, (ta, tb), ⟨hta, htb, lt_of_le_of_ne hab heq, hall⟩, ?_⟩
        have : (ta - tb) * (ta - tb) * edgeLen2 e ≠ 0 := by
          have : ta - tb ≠ 0 := sub_ne_zero.2 heq
          have := hL.ne'
          positivity
        rw [if_neg (by simpa using this), if_pos hle, ea, eb]
        rfl

theorem edgeHides_spec (S : Sorter) (hS : SortOK S) (cs : List (Nat × V3 (Ext K))) (hk : cs.Pairwise (fun a b => a.1 ≠ b.1))
    (v : Nat) (e : Edge K) (hne : e.1 ≠ e.2) (ho : OnEdge cs e) (fs : List (Facet (Ext K) × (Nat × Nat × Nat))) :
    ∃ spans : List (K × K), edgeHides S fs cs v e.fin = .ok (spans.map (spanPts e)) ∧
      spans.Pairwise (fun a b => a.1 ≤ b.1) ∧
      (∀ s ∈ spans, ∃ p ∈ fs, ¬(v = p.2.1 ∨ v = p.2.2.1 ∨ v = p.2.2.2) ∧ FaceSpan cs e p.1 p.2 s) ∧
      (∀ p ∈ fs, ¬(v = p.2.1 ∨ v = p.2.2.1 ∨ v = p.2.2.2) → (∃ s ∈ spans, FaceSpan cs e p.1 p.2 s) ∨
        ∀ t t', Cand cs e p.1 p.2 t → Cand cs e p.1 p.2 t' → t = t') := by
  have hL := edgeLen2_pos e hne
  have hf := fun p : Facet (Ext K) × (Nat × Nat × Nat) => faceHides_spec S hS cs hk v e hne ho p.1 p.2
  obtain ⟨hs, hhs⟩ := mapM_except_total (fun p : Facet (Ext K) × (Nat × Nat × Nat) => faceHides S cs v e.fin p.1 p.2) fs (by
    intro p _
    rcases hf p with ⟨_, h⟩ | ⟨_, s, _, h⟩ | ⟨_, _, h⟩ <;> exact ⟨_, h⟩)
  have hall := mapM_except_forall _ _ _ hhs
  have hmem : ∀ x, x ∈ hs.filterMap id ↔ ∃ p ∈ fs, faceHides S cs v e.fin p.1 p.2 = .ok (some x) := by
    intro x
    rw [List.mem_filterMap]
    constructor
    · rintro ⟨o, ho', hx⟩
      obtain ⟨i, hi⟩ := List.getElem?_of_mem ho'
      obtain ⟨ai, bi⟩ := List.getElem?_eq_some_iff.1 hi
      have hlen := hall.length_eq
      have := (List.forall₂_iff_get.1 hall).2 i (by omega) ai
      simp only [List.get_eq_getElem] at this
      refine ⟨fs[i], List.getElem_mem _, ?_⟩
      rw [this, bi]
      simpa using hx
    · rintro ⟨p, hp, hx⟩
      obtain ⟨i, hi⟩ := List.getElem?_of_mem hp
      obtain ⟨ai, bi⟩ := List.getElem?_eq_some_iff.1 hi
      have hlen := hall.length_eq
      have := (List.forall₂_iff_get.1 hall).2 i ai (by omega)
      simp only [List.get_eq_getElem, bi, hx, Except.ok.injEq] at this
      exact ⟨some x, by rw [this]; exact List.getElem_mem _, rfl⟩
  have hspan : ∀ x ∈ hs.filterMap id, ∃ s, x = spanPts e s ∧
      ∃ p ∈ fs, ¬(v = p.2.1 ∨ v = p.2.2.1 ∨ v = p.2.2.2) ∧ FaceSpan cs e p.1 p.2 s := by
    intro x hx
    obtain ⟨p, hp, h⟩ := (hmem x).1 hx
    rcases hf p with ⟨_, h'⟩ | ⟨hv, s, hs', h'⟩ | ⟨_, _, h'⟩ <;> rw [h] at h' <;> simp at h'
    exact ⟨s, h', p, hp, hv, hs'⟩
  let lt : Edge (Ext K) → Edge (Ext K) → Bool := fun l r => FP.lt (e.fin.1 - l.1).sqNorm (e.fin.1 - r.1).sqNorm
  have hperm := hS.perm lt (hs.filterMap id)
  have hsort := hS.sorted lt (hs.filterMap id) (strictWeak_key _ (fun x : Edge (Ext K) => (e.fin.1 - x.1).sqNorm) (by
    intro x hx
    obtain ⟨s, rfl, _⟩ := hspan x hx
    simp only [spanPts]
    rw [dist_fin]; exact Ext.ok_fin _))
  obtain ⟨spans, h1, h2⟩ := exists_map_of_forall (spanPts e) _ (S.sort lt (hs.filterMap id))
    (fun x hx => hspan x (hperm.mem_iff.1 hx))
  refine ⟨spans, ?_, ?_, h2, ?_⟩
  · unfold edgeHides
    rw [hhs]
    show Except.ok (S.sort lt (hs.filterMap id)) = _
    rw [h1]
  · rw [h1, List.pairwise_map] at hsort
    refine List.Pairwise.imp_of_mem ?_ hsort
    intro a b ha hb hab
    obtain ⟨_, _, _, fa⟩ := h2 a ha
    obtain ⟨_, _, _, fb⟩ := h2 b hb
    simp only [lt, spanPts, dist_fin, Ext.fin_lt, decide_eq_false_iff_not, sq_lt_iff _ hL _ _ fb.lo.1 fa.lo.1, not_lt] at hab
    exact hab
  · intro p hp hv
    rcases hf p with ⟨h, _⟩ | ⟨_, s, hs', h⟩ | ⟨_, h, _⟩
    · exact absurd h hv
    · left
      have := hperm.mem_iff.2 ((hmem _).2 ⟨p, hp, h⟩)
      rw [h1, List.mem_map] at this
      obtain ⟨s', hs1, hs2⟩ := this
      have : s' = s := by
        simp only [spanPts, Prod.mk.injEq] at hs2
        have q1 := edgeAt_inj e hne _ _ ((V3.fin_injective _ _).1 hs2.1)
        have q2 := edgeAt_inj e hne _ _ ((V3.fin_injective _ _).1 hs2.2)
        exact Prod.ext q1 q2
      subst this
      exact ⟨s', hs1, hs'⟩
    · right; exact h


/-! ## degenerate edges -/

theorem edgeAt_degenerate (e : Edge K) (h : e.1 = e.2) (t : K) : edgeAt e t = e.1 := by
  unfold edgeAt; rw [← h]; ext <;> simp [V3.smul]

theorem faceHides_degenerate (S : Sorter) (hS : SortOK S) (cs : List (Nat × V3 (Ext K))) (hk : cs.Pairwise (fun a b => a.1 ≠ b.1))
    (v : Nat) (e : Edge K) (hne : e.1 = e.2) (ho : OnEdge cs e) (f : Facet (Ext K)) (el : Nat × Nat × Nat) :
    faceHides S cs v e.fin f el = .ok none := by
  have hmem := mem_candList cs hk e ho f el
  unfold faceHides
  split_ifs with hv
  · rfl
  · rw [hiddenPoints_eq]
    dsimp only [bind, Except.bind, pure, Except.pure]
    split_ifs with hlen
    · rfl
    · have hperm := hS.perm (fun l r : V3 (Ext K) × Ext K => FP.lt l.2 r.2) (candList cs e.fin f el)
      generalize S.sort (fun l r : V3 (Ext K) × Ext K => FP.lt l.2 r.2) (candList cs e.fin f el) = sorted at hperm
      have hlen2 : 2 ≤ sorted.length := by rw [hperm.length_eq]; omega
      rcases hh : sorted.head? with _ | a
      · cases sorted <;> simp at hh hlen2
      rcases hl : sorted.getLast? with _ | b
      · cases sorted <;> simp at hl hlen2
      dsimp only
      obtain ⟨ta, hta, ea⟩ := (hmem a).1 (hperm.mem_iff.1 (List.mem_of_mem_head? hh))
      obtain ⟨tb, htb, eb⟩ := (hmem b).1 (hperm.mem_iff.1 (List.mem_of_mem_getLast? hl))
      have hd : (a.1 - b.1).sqNorm = Ext.fin 0 := by
        rw [ea, eb]; simp only [candPt]
        rw [V3.fin_sub, V3.fin_sqNorm, edgeAt_degenerate e hne, edgeAt_degenerate e hne]
        simp [V3.sqNorm, V3.dot]
      rw [hd, if_pos (by simp)]

theorem edgeHides_degenerate (S : Sorter) (hS : SortOK S) (cs : List (Nat × V3 (Ext K))) (hk : cs.Pairwise (fun a b => a.1 ≠ b.1))
    (v : Nat) (e : Edge K) (hne : e.1 = e.2) (ho : OnEdge cs e) (fs : List (Facet (Ext K) × (Nat × Nat × Nat))) :
    edgeHides S fs cs v e.fin = .ok [] := by
  have h : fs.mapM (fun p => faceHides S cs v e.fin p.1 p.2) = .ok (fs.map fun _ => none) := by
    apply mapM_except_of_forall
    rw [List.forall₂_map_right_iff]
    exact List.forall₂_same.2 fun p _ => faceHides_degenerate S hS cs hk v e hne ho p.1 p.2
  unfold edgeHides
  rw [h]
  have h0 : (fs.map fun _ => (none : Option (Edge (Ext K)))).filterMap id = [] := by
    simp
  show Except.ok (S.sort _ ((fs.map fun _ => (none : Option (Edge (Ext K)))).filterMap id)) = _
  rw [h0]
  have := hS.perm (fun l r : Edge (Ext K) => FP.lt (e.fin.1 - l.1).sqNorm (e.fin.1 - r.1).sqNorm) []
  rw [List.perm_nil.1 this]

theorem edgeLines_degenerate (e : Edge K) (hne : e.1 = e.2) : edgeLines (FP.lit 0) e.fin [] = .ok [] := by
  unfold edgeLines
  simp only [spanLoop, bind, Except.bind, pure, Except.pure]
  have : (e.fin.1 - e.fin.2).sqNorm = Ext.fin 0 := by
    rw [V3.fin_sub, V3.fin_sqNorm, hne]; simp [V3.sqNorm, V3.dot]
  rw [this]
  simp

/-! ## all edges -/

/-- the crossings recorded for edge `v` of a table -/
structure CrossRec (es : List (Edge K)) (unseen v : Nat) (e : Edge K) (cs : List (Nat × V3 (Ext K))) : Prop where
  keys : cs.Pairwise (fun a b => a.1 ≠ b.1)
  mem : ∀ u p, (u, p) ∈ cs ↔ ∃ g q, u ≠ v ∧ es[u]? = some g ∧ p = V3.fin q ∧ ¬ PageParallel e g ∧ CrossedAt e g q

theorem CrossRec.onEdge {es : List (Edge K)} {unseen v : Nat} {e : Edge K} {cs : List (Nat × V3 (Ext K))} (h : CrossRec es unseen v e cs) : OnEdge cs e := by
  intro c hc
  obtain ⟨g, q, _, _, hq, _, s, t, h0, h1, _, _, hs, _⟩ := (h.mem c.1 c.2).1 hc
  exact ⟨s, h0, h1, by rw [hq, hs]⟩

theorem pageParallel_symm (e g : Edge K) : PageParallel e g ↔ PageParallel g e := by
  simp only [PageParallel]
  constructor <;> intro h <;> linear_combination -h

theorem edgeCrosses_fin (es : List (Edge K)) (unseen : Nat) (hun : unseen ≤ es.length) :
    ∃ cs, edgeCrosses (es.map Edge.fin) unseen = .ok cs ∧ cs.length = unseen ∧
      ∀ v e m, es[v]? = some e → cs[v]? = some m → CrossRec es unseen v e m := by
  obtain ⟨cs, h1, h2, h3⟩ := edgeCrosses_ok (es.map Edge.fin) unseen
  refine ⟨cs, h1, h2, ?_⟩
  intro v e m he hm
  obtain ⟨h4, h5⟩ := h3 v m hm
  have hv : v < unseen := by rw [← h2]; exact (List.getElem?_eq_some_iff.1 hm).1
  refine ⟨h5, ?_⟩
  intro u p
  have : (u, p) ∈ m ↔ (v, u, p) ∈ crossList (es.map Edge.fin) unseen := by
    rw [h4]
    simp only [List.mem_map, List.mem_filter, beq_iff_eq]
    constructor
    · rintro ⟨x, ⟨hx, hxv⟩, hxp⟩
      have : x = (v, u, p) := Prod.ext hxv hxp
      rw [← this]; exact hx
    · intro h; exact ⟨(v, u, p), ⟨h, rfl⟩, rfl⟩
  rw [this, mem_crossList]
  have getE : ∀ (i : Nat) (x : Edge (Ext K)), (es.map Edge.fin)[i]? = some x ↔ ∃ g, es[i]? = some g ∧ x = g.fin := by
    intro i x
    rw [List.getElem?_map]
    cases es[i]? <;> simp [eq_comm]
  constructor
  · rintro ⟨a, b, ea, eb, ha, hab, hea, heb, hx⟩
    obtain ⟨ga, hga, rfl⟩ := (getE a ea).1 hea
    obtain ⟨gb, hgb, rfl⟩ := (getE b eb).1 heb
    obtain ⟨hpar, i, j, i0, i1, j0, j1, hxy, hor⟩ := (crossPair_fin a b ga gb _).1 hx
    rcases hor with ⟨heq, hz⟩ | ⟨heq, hz⟩
    · simp only [Prod.mk.injEq] at heq
      obtain ⟨rfl, rfl, rfl⟩ := heq
      rw [hgb] at he; injection he with he; subst he
      exact ⟨ga, edgeAt gb i, by omega, hga, rfl, fun h => hpar ((pageParallel_symm _ _).1 h), i, j, i0, i1, j0, j1, rfl, hxy, hz⟩
    · simp only [Prod.mk.injEq] at heq
      obtain ⟨rfl, rfl, rfl⟩ := heq
      rw [hga] at he; injection he with he; subst he
      exact ⟨gb, edgeAt ga j, by omega, hgb, rfl, hpar, j, i, j0, j1, i0, i1, rfl, hxy.symm, hz⟩
  · rintro ⟨g, q, huv, hg, rfl, hpar, s, t, s0, s1, t0, t1, rfl, hxy, hz⟩
    rcases Nat.lt_or_gt_of_ne huv with hlt | hgt
    · refine ⟨u, v, g.fin, e.fin, by omega, hlt, (getE u _).2 ⟨g, hg, rfl⟩, (getE v _).2 ⟨e, he, rfl⟩, ?_⟩
      rw [crossPair_fin]
      exact ⟨fun h => hpar ((pageParallel_symm _ _).1 h), s, t, s0, s1, t0, t1, hxy, Or.inl ⟨rfl, hz⟩⟩
    · refine ⟨v, u, e.fin, g.fin, hv, hgt, (getE v _).2 ⟨e, he, rfl⟩, (getE u _).2 ⟨g, hg, rfl⟩, ?_⟩
      rw [crossPair_fin]
      exact ⟨hpar, t, s, t0, t1, s0, s1, hxy.symm, Or.inr ⟨rfl, hz⟩⟩

/-- what happens on one edge -/
structure EdgeDrawn (es : List (Edge K)) (unseen : Nat) (fs : List (Facet (Ext K) × (Nat × Nat × Nat))) (v : Nat) (e : Edge K)
    (segs : List (K × K)) (cs : List (Nat × V3 (Ext K))) (spans : List (K × K)) : Prop where
  rcd : CrossRec es unseen v e cs
  nondeg : e.1 ≠ e.2 → segs = edgeSegs spans
  deg : e.1 = e.2 → segs = []
  range : ∀ s ∈ spans, 0 ≤ s.1 ∧ s.1 ≤ s.2 ∧ s.2 ≤ 1
  sorted : spans.Pairwise (fun a b => a.1 ≤ b.1)
  src : ∀ s ∈ spans, ∃ p ∈ fs, ¬(v = p.2.1 ∨ v = p.2.2.1 ∨ v = p.2.2.2) ∧ FaceSpan cs e p.1 p.2 s
  all : e.1 ≠ e.2 → ∀ p ∈ fs, ¬(v = p.2.1 ∨ v = p.2.2.1 ∨ v = p.2.2.2) → (∃ s ∈ spans, FaceSpan cs e p.1 p.2 s) ∨
        ∀ t t', Cand cs e p.1 p.2 t → Cand cs e p.1 p.2 t' → t = t'

theorem toLines_spec (S : Sorter) (hS : SortOK S) (s : STLFile (Ext K)) (es : List (Edge K)) (hes : s.edges = es.map Edge.fin)
    (hun : s.unseen ≤ es.length) :
    ∃ L : List (List (K × K)), L.length = s.unseen ∧ s.toLines S = .ok ((List.zipWith segLines es L).flatten) ∧
      ∀ v e segs, es[v]? = some e → L[v]? = some segs →
        ∃ cs spans, EdgeDrawn es s.unseen (s.facets.zip s.faceEdge) v e segs cs spans := by
  obtain ⟨cross, hc1, hc2, hc3⟩ := edgeCrosses_fin es s.unseen hun
  let fs := s.facets.zip s.faceEdge
  -- per edge
  have per : ∀ v, v < s.unseen → ∃ (e : Edge K) (cs : List (Nat × V3 (Ext K))) (spans segs : List (K × K)),
      es[v]? = some e ∧ cross[v]? = some cs ∧ EdgeDrawn es s.unseen fs v e segs cs spans ∧
      edgeHides S fs cs v e.fin = .ok (spans.map (spanPts e)) ∧
      edgeLines (FP.lit 0) e.fin (spans.map (spanPts e)) = .ok (segLines e segs) := by
    intro v hv
    have he : es[v]? = some es[v] := List.getElem?_eq_getElem (by omega)
    have hm : cross[v]? = some cross[v] := List.getElem?_eq_getElem (by omega)
    generalize es[v] = e at he
    generalize cross[v] = cs at hm
    have hr := hc3 v e cs he hm
    by_cases hne : e.1 = e.2
    · refine ⟨e, cs, [], [], he, hm, ⟨hr, fun h => absurd hne h, fun _ => rfl, by simp, .nil, by simp, fun h => absurd hne h⟩, ?_, ?_⟩
      · exact edgeHides_degenerate S hS cs hr.keys v e hne hr.onEdge fs
      · exact edgeLines_degenerate e hne
    · obtain ⟨spans, h1, h2, h3, h4⟩ := edgeHides_spec S hS cs hr.keys v e hne hr.onEdge fs
      have hrange : ∀ s ∈ spans, 0 ≤ s.1 ∧ s.1 ≤ s.2 ∧ s.2 ≤ 1 := by
        intro x hx
        obtain ⟨p, _, _, hf⟩ := h3 x hx
        exact ⟨hf.lo.1, hf.lt.le, hf.hi.2.1⟩
      exact ⟨e, cs, spans, edgeSegs spans, he, hm, ⟨hr, fun _ => rfl, fun h => absurd h hne, hrange, h2, h3, fun _ => h4⟩, h1,
        edgeLines_fin e hne spans hrange⟩
  -- choose for all edges
  have choice : ∀ n, n ≤ s.unseen → ∃ (H : List (List (K × K))) (L : List (List (K × K))), H.length = n ∧ L.length = n ∧
      ∀ v, v < n → ∃ (e : Edge K) (cs : List (Nat × V3 (Ext K))) (spans segs : List (K × K)), H[v]? = some spans ∧ L[v]? = some segs ∧
        es[v]? = some e ∧ cross[v]? = some cs ∧ EdgeDrawn es s.unseen fs v e segs cs spans ∧
        edgeHides S fs cs v e.fin = .ok (spans.map (spanPts e)) ∧
        edgeLines (FP.lit 0) e.fin (spans.map (spanPts e)) = .ok (segLines e segs) := by
    intro n
    induction n with
    | zero => intro _; exact ⟨[], [], rfl, rfl, by simp⟩
    | succ n ih =>
      intro hn
      obtain ⟨H, L, hH, hL, h⟩ := ih (by omega)
      obtain ⟨e, cs, spans, segs, p⟩ := per n (by omega)
      refine ⟨H ++ [spans], L ++ [segs], by simp [hH], by simp [hL], ?_⟩
      intro v hv
      rcases Nat.lt_or_ge v n with hlt | hge
      · obtain ⟨e', cs', spans', segs', p1, p2, p3⟩ := h v hlt
        exact ⟨e', cs', spans', segs', by rw [List.getElem?_append_left (by omega)]; exact p1,
          by rw [List.getElem?_append_left (by omega)]; exact p2, p3⟩
      · have : v = n := by omega
        subst this
        exact ⟨e, cs, spans, segs, by rw [← hH]; simp, by rw [← hL]; simp, p⟩
  obtain ⟨H, L, hH, hL, hall⟩ := choice s.unseen (le_refl _)
  refine ⟨L, hL, ?_, ?_⟩
  · unfold STLFile.toLines
    rw [hes, hc1]
    dsimp only [bind, Except.bind]
    let pts : Nat → List (Edge (Ext K)) := fun v => ((es[v]?).bind fun e => (H[v]?).map fun sp => sp.map (spanPts e)).getD []
    rw [mapM_except_of_forall _ _ ((List.range s.unseen).map pts) ?h1]
    case h1 =>
      rw [List.forall₂_map_right_iff]
      refine List.forall₂_same.2 fun v hv => ?_
      obtain ⟨e, cs, spans, segs, p1, p2, p3, p4, p5, p6, p7⟩ := hall v (List.mem_range.1 hv)
      simp only [List.getElem?_map, p3, p4, Option.map_some, pts, p1, Option.bind_some, Option.getD_some]
      exact p6
    dsimp only
    unfold generateLines
    rw [mapM_except_of_forall _ _ ((List.range s.unseen).map fun v => ((es[v]?).bind fun e => (L[v]?).map (segLines e)).getD []) ?h2]
    case h2 =>
      rw [List.forall₂_map_right_iff]
      refine List.forall₂_same.2 fun v hv => ?_
      have hv' := List.mem_range.1 hv
      obtain ⟨e, cs, spans, segs, p1, p2, p3, p4, p5, p6, p7⟩ := hall v hv'
      simp only [List.getElem?_map, p3, Option.map_some, List.getElem?_range hv', Option.getD_some, pts, p1, p2, Option.bind_some, Bool.false_eq_true, if_false]
      exact p7
    dsimp only [bind, Except.bind, pure, Except.pure]
    congr 2
    apply List.ext_getElem?
    intro v
    rcases Nat.lt_or_ge v s.unseen with hv | hv
    · obtain ⟨e, cs, spans, segs, p1, p2, p3, _⟩ := hall v hv
      simp [List.getElem?_zipWith, p2, p3, List.getElem?_range hv]
    · rw [List.getElem?_eq_none (by simpa using hv), List.getElem?_eq_none (by simp [hL]; omega)]
  · intro v e segs he hs
    have hv : v < s.unseen := by rw [← hL]; exact (List.getElem?_eq_some_iff.1 hs).1
    obtain ⟨e', cs, spans, segs', p1, p2, p3, p4, p5, _⟩ := hall v hv
    rw [he] at p3; injection p3 with p3; subst p3
    rw [hs] at p2; injection p2 with p2; subst p2
    exact ⟨cs, spans, p5⟩

end S2P
