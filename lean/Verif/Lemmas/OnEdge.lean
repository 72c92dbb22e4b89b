import Verif.Lemmas.RoundLines

set_option linter.unusedSectionVars false
set_option linter.unusedVariables false
set_option linter.unusedSimpArgs false

/-! # Whatever the arithmetic: every line drawn runs between points computed on one edge -/

namespace S2P
variable {α : Type} [FP α]

/-- an end of the edge, or a point computed from a parameter that is not below 0 and not above 1 -/
def PointOn (e : Edge α) (p : V3 α) : Prop :=
  p = e.1 ∨ p = e.2 ∨ ∃ i, FP.le (FP.lit 0) i = true ∧ FP.le i (FP.lit 1) = true ∧ p = e.1 + (e.2 - e.1).smul i

theorem crossPair_on (es : List (Edge α)) (v u : Nat) (ev eu : Edge α) (hv : es[v]? = some ev) (hu : es[u]? = some eu) (x : Nat × Nat × V3 α)
    (h : x ∈ crossPair v u ev eu) : ∃ e, es[x.1]? = some e ∧ PointOn e x.2.2 := by
  unfold crossPair at h
  dsimp only at h
  split_ifs at h with h1
  all_goals try (simp only [List.append_nil, List.nil_append, List.mem_append, List.mem_cons, List.not_mem_nil, or_false] at h)
  all_goals
    simp only [Bool.and_eq_true] at h1
    obtain ⟨⟨⟨i0, i1⟩, j0⟩, j1⟩ := h1
  · rcases h with rfl | rfl
    · exact ⟨eu, hu, Or.inr (Or.inr ⟨_, i0, i1, rfl⟩)⟩
    · exact ⟨ev, hv, Or.inr (Or.inr ⟨_, j0, j1, rfl⟩)⟩
  · subst h; exact ⟨eu, hu, Or.inr (Or.inr ⟨_, i0, i1, rfl⟩)⟩
  · subst h; exact ⟨ev, hv, Or.inr (Or.inr ⟨_, j0, j1, rfl⟩)⟩

theorem edgeCrosses_on (es : List (Edge α)) (unseen : Nat) (cs) (h : edgeCrosses es unseen = .ok cs) (v : Nat) (m) (hm : cs[v]? = some m)
    (ev : Edge α) (hv : es[v]? = some ev) : m.Pairwise (fun a b => a.1 ≠ b.1) ∧ ∀ c ∈ m, PointOn ev c.2 := by
  obtain ⟨cs', h1, h2, h3⟩ := edgeCrosses_ok es unseen
  rw [h] at h1; injection h1 with h1; subst h1
  obtain ⟨e, hp⟩ := h3 v m hm
  refine ⟨hp, ?_⟩
  intro c hc
  rw [e] at hc
  obtain ⟨x, hx, rfl⟩ := List.mem_map.mp hc
  obtain ⟨hx, hxv⟩ := List.mem_filter.mp hx
  obtain ⟨v', u', ev', eu', -, -, g1, g2, g3⟩ := (mem_crossList es unseen x).mp hx
  obtain ⟨e', k1, k2⟩ := crossPair_on es _ _ ev' eu' g1 g2 x g3
  simp at hxv
  rw [hxv, hv] at k1
  injection k1 with k1; subst k1
  exact k2

theorem candList_on (cs : List (Nat × V3 α)) (hk : cs.Pairwise (fun a b => a.1 ≠ b.1)) (ev : Edge α) (f : Facet α)
    (el : Nat × Nat × Nat) (hc : ∀ c ∈ cs, PointOn ev c.2) (x : V3 α × α) (hx : x ∈ candList cs ev f el) : PointOn ev x.1 := by
  have cr : ∀ k, x ∈ crossPt cs ev k → PointOn ev x.1 := by
    intro k hk'
    obtain ⟨c, hcm, -, rfl⟩ := (mem_crossPt cs hk ev k x).mp hk'
    exact hc c hcm
  unfold candList at hx
  simp only [List.mem_append] at hx
  rcases hx with (((h | h) | h) | h) | h
  · split_ifs at h
    · rw [List.mem_singleton] at h; subst h; exact Or.inl rfl
    · simp at h
  · split_ifs at h
    · rw [List.mem_singleton] at h; subst h; exact Or.inr (Or.inl rfl)
    · simp at h
  · exact cr _ h
  · exact cr _ h
  · exact cr _ h

theorem faceHides_on (S : Sorter) (hS : SortOK S) (cs : List (Nat × V3 α)) (hk : cs.Pairwise (fun a b => a.1 ≠ b.1)) (v : Nat) (ev : Edge α)
    (f : Facet α) (el : Nat × Nat × Nat) (hc : ∀ c ∈ cs, PointOn ev c.2) (h) (hr : faceHides S cs v ev f el = .ok (some h)) :
    PointOn ev h.1 ∧ PointOn ev h.2 := by
  unfold faceHides at hr
  rw [hiddenPoints_eq] at hr
  dsimp only [bind, Except.bind, pure, Except.pure] at hr
  have hcl := candList_on cs hk ev f el hc
  generalize candList cs ev f el = l at *
  split_ifs at hr
  · injection hr with hr; cases hr
  · injection hr with hr; cases hr
  · have hperm := hS.perm (fun l r : V3 α × α => FP.lt l.2 r.2) l
    generalize S.sort (fun l r : V3 α × α => FP.lt l.2 r.2) l = s at *
    split at hr
    · rename_i a b ha hb
      split_ifs at hr
      · injection hr with hr; cases hr
      · injection hr with hr; injection hr with hr; subst hr
        exact ⟨hcl a (hperm.subset (List.mem_of_mem_head? ha)), hcl b (hperm.subset (List.mem_of_getLast? hb))⟩
    · cases hr

theorem forall₂_right_mem {A B : Type} {R : A → B → Prop} {l : List A} {m : List B} (h : List.Forall₂ R l m) {b : B} (hb : b ∈ m) : ∃ a ∈ l, R a b := by
  induction h with
  | nil => simp at hb
  | cons h1 _ ih =>
    rcases List.mem_cons.mp hb with rfl | hb
    · exact ⟨_, by simp, h1⟩
    · obtain ⟨a, h2, h3⟩ := ih hb; exact ⟨a, by simp [h2], h3⟩

theorem edgeHides_on (S : Sorter) (hS : SortOK S) (fs : List (Facet α × (Nat × Nat × Nat))) (cs : List (Nat × V3 α))
    (hk : cs.Pairwise (fun a b => a.1 ≠ b.1)) (v : Nat) (ev : Edge α) (hc : ∀ c ∈ cs, PointOn ev c.2) (r)
    (h : edgeHides S fs cs v ev = .ok r) : ∀ h ∈ r, PointOn ev h.1 ∧ PointOn ev h.2 := by
  unfold edgeHides at h
  cases hm : fs.mapM (fun p => faceHides S cs v ev p.1 p.2) with
  | error a => rw [hm] at h; cases h
  | ok hs =>
    rw [hm] at h
    injection h with h; subst h
    intro h hh
    have := (hS.perm _ _).subset hh
    obtain ⟨x, hx, hxe⟩ := List.mem_filterMap.mp this
    simp only [id] at hxe; subst hxe
    obtain ⟨p, hp, hf⟩ := forall₂_right_mem (mapM_except_forall _ _ _ hm) hx
    exact faceHides_on S hS cs hk v ev p.1 p.2 hc h hf

theorem spanLoop_on (p : Edge α) : ∀ (hs : List (Edge α)) (frm : V3 α) (d : α) (acc : List (Line α)) (r), spanLoop p.1 hs frm d acc = .ok r →
    (∀ h ∈ hs, PointOn p h.1 ∧ PointOn p h.2) → PointOn p frm → (∀ l ∈ acc, ∃ a b, PointOn p a ∧ PointOn p b ∧ l = Line.of3 a b) →
    PointOn p r.1 ∧ ∀ l ∈ r.2, ∃ a b, PointOn p a ∧ PointOn p b ∧ l = Line.of3 a b
  | [], frm, d, acc, r, h, _, hf, ha => by
    unfold spanLoop at h; injection h with h; subst h; exact ⟨hf, ha⟩
  | h :: hs, frm, d, acc, r, hr, hh, hf, ha => by
    unfold spanLoop at hr
    dsimp only at hr
    obtain ⟨b1, b2⟩ := hh h (by simp)
    split_ifs at hr
    all_goals
      refine spanLoop_on p hs _ _ _ r hr (fun x hx => hh x (by simp [hx])) ?_ ?_
      · first | exact b2 | exact hf
      · first
        | exact ha
        | (intro l hl
           rcases List.mem_append.mp hl with hl | hl
           · exact ha l hl
           · rw [List.mem_singleton] at hl; exact ⟨_, _, hf, b1, hl⟩)

theorem edgeLines_on (ml : α) (p : Edge α) (hs : List (Edge α)) (hh : ∀ h ∈ hs, PointOn p h.1 ∧ PointOn p h.2) (r) (h : edgeLines ml p hs = .ok r) :
    ∀ l ∈ r, ∃ a b, PointOn p a ∧ PointOn p b ∧ l = Line.of3 a b := by
  unfold edgeLines at h
  cases hl : spanLoop p.1 hs p.1 (FP.lit 0) [] with
  | error a => rw [hl] at h; cases h
  | ok x =>
    rw [hl] at h
    obtain ⟨h2, h3⟩ := spanLoop_on p hs _ _ _ x hl hh (Or.inl rfl) (by simp)
    dsimp only [bind, Except.bind, pure, Except.pure] at h
    split_ifs at h
    · injection h with h; subst h
      intro l hl
      rcases List.mem_append.mp hl with hl | hl
      · exact h3 l hl
      · rw [List.mem_singleton] at hl; exact ⟨_, _, h2, Or.inr (Or.inl rfl), hl⟩
    · injection h with h; subst h; exact h3

theorem except_bind_ok {A B : Type} {x : Except Abort A} {f : A → Except Abort B} {r : B} (h : x >>= f = .ok r) : ∃ a, x = .ok a ∧ f a = .ok r := by
  cases x with
  | error e => cases h
  | ok a => exact ⟨a, rfl, h⟩

theorem toLines_on (S : Sorter) (hS : SortOK S) (s : STLFile α) (ls) (h : s.toLines S = .ok ls) :
    ∀ l ∈ ls, ∃ e ∈ s.edges, ∃ a b, PointOn e a ∧ PointOn e b ∧ l = Line.of3 a b := by
  unfold STLFile.toLines at h
  obtain ⟨cs, hc, h⟩ := except_bind_ok h
  obtain ⟨hides, hm, h⟩ := except_bind_ok h
  have hf := mapM_except_forall _ _ _ hm
  unfold generateLines at h
  obtain ⟨L, hg, h⟩ := except_bind_ok h
  injection h with h; subst h
  intro l hl
  obtain ⟨c, hcL, hlc⟩ := List.mem_flatten.mp hl
  obtain ⟨v, hv, hce⟩ := forall₂_right_mem (mapM_except_forall _ _ _ hg) hcL
  cases he : s.edges[v]? with
  | none => simp only [he] at hce; cases hce
  | some ev =>
    simp only [he, Bool.false_eq_true, if_false] at hce
    refine ⟨ev, List.mem_of_getElem? he, ?_⟩
    refine edgeLines_on _ ev _ ?_ c hce l hlc
    cases hh : hides[v]? with
    | none => simp
    | some r =>
      simp only [Option.getD_some]
      have hv' := List.mem_range.1 hv
      obtain ⟨hlen, hget⟩ := List.forall₂_iff_get.1 hf
      have hvl : v < hides.length := by
        by_contra hcon
        rw [List.getElem?_eq_none (by omega)] at hh; cases hh
      have hg2 := hget v (by simpa using hv') hvl
      rw [List.getElem?_eq_getElem hvl] at hh
      injection hh with hh
      simp only [List.get_eq_getElem, List.getElem_range, hh, he] at hg2
      cases hcv : cs[v]? with
      | none => simp only [hcv] at hg2; cases hg2
      | some m =>
        simp only [hcv] at hg2
        obtain ⟨k1, k2⟩ := edgeCrosses_on s.edges s.unseen cs hc v m hcv ev he
        exact edgeHides_on S hS _ m k1 v ev k2 r hg2

end S2P
