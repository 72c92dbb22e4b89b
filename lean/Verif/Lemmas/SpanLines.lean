import Verif.Lemmas.SpanFace

set_option linter.unusedSectionVars false
set_option linter.unusedVariables false
set_option linter.unusedSimpArgs false

/-! # Edges partly hidden, in rounded arithmetic: the lines of a view -/

namespace S2P

section
variable {R : Rounding}

/-- the lines of a view, edge by edge -/
theorem toLines_split {S : Sorter} {s : STLFile (Fl R)} {ls} (h : s.toLines S = .ok ls) :
    ∃ cs, edgeCrosses s.edges s.unseen = .ok cs ∧
      (∀ l ∈ ls, ∃ v ev m hs r, v < s.unseen ∧ s.edges[v]? = some ev ∧ cs[v]? = some m ∧ edgeHides S (s.facets.zip s.faceEdge) m v ev = .ok hs ∧
        edgeLines (FP.lit 0) ev hs = .ok r ∧ l ∈ r) ∧
      ∀ v ev, v < s.unseen → s.edges[v]? = some ev → ∃ m hs r, cs[v]? = some m ∧ edgeHides S (s.facets.zip s.faceEdge) m v ev = .ok hs ∧
        edgeLines (FP.lit 0) ev hs = .ok r ∧ ∀ l ∈ r, l ∈ ls := by
  unfold STLFile.toLines at h
  obtain ⟨cs, hcs, h⟩ := except_bind_ok h
  obtain ⟨hides, hm, h⟩ := except_bind_ok h
  have hfm := mapM_except_forall _ _ _ hm
  unfold generateLines at h
  obtain ⟨L, hg, h⟩ := except_bind_ok h
  injection h with h; subst h
  have hgf := mapM_except_forall _ _ _ hg
  obtain ⟨hlen, hget⟩ := List.forall₂_iff_get.1 hgf
  obtain ⟨hlen2, hget2⟩ := List.forall₂_iff_get.1 hfm
  have main : ∀ v ev, (hvu : v < s.unseen) → s.edges[v]? = some ev → ∃ (hvl : v < L.length) (m : _) (hs : _), cs[v]? = some m ∧ edgeHides S (s.facets.zip s.faceEdge) m v ev = .ok hs ∧
        edgeLines (FP.lit 0) ev hs = .ok L[v] := by
    intro v ev hvu hv
    have hvl : v < L.length := by rw [← hlen]; simpa using hvu
    have hce := hget v (by simpa using hvu) hvl
    simp only [List.get_eq_getElem, List.getElem_range, hv, Bool.false_eq_true, if_false] at hce
    have hvh : v < hides.length := by rw [← hlen2]; simpa using hvu
    have hg2 := hget2 v (by simpa using hvu) hvh
    simp only [List.get_eq_getElem, List.getElem_range, hv] at hg2
    rw [List.getElem?_eq_getElem hvh, Option.getD_some] at hce
    cases hcv : cs[v]? with
    | none => simp only [hcv] at hg2; cases hg2
    | some m =>
      simp only [hcv] at hg2
      exact ⟨hvl, m, _, rfl, hg2, hce⟩
  refine ⟨cs, hcs, ?_, ?_⟩
  · intro l hl
    obtain ⟨c, hcL, hlc⟩ := List.mem_flatten.mp hl
    obtain ⟨v, hvl, rfl⟩ := List.getElem_of_mem hcL
    have hvu : v < s.unseen := by rw [← hlen] at hvl; simpa using hvl
    have hce := hget v (by simpa using hvu) hvl
    cases he : s.edges[v]? with
    | none => simp only [List.get_eq_getElem, List.getElem_range, he] at hce; cases hce
    | some ev =>
      obtain ⟨_, m, hs, k1, k2, k3⟩ := main v ev hvu he
      exact ⟨v, ev, m, hs, _, hvu, he, k1, k2, k3, hlc⟩
  · intro v ev hvu hv
    obtain ⟨hvl, m, hs, k1, k2, k3⟩ := main v ev hvu hv
    exact ⟨m, hs, _, k1, k2, k3, fun l hl => List.mem_flatten.2 ⟨_, List.getElem_mem hvl, hl⟩⟩

theorem spanLoop_pred (P : V3 (Fl R) → Prop) (p0 : V3 (Fl R)) : ∀ (hs : List (Edge (Fl R))) (frm : V3 (Fl R)) (d : Fl R) (acc : List (Line (Fl R))) (r), spanLoop p0 hs frm d acc = .ok r →
    (∀ h ∈ hs, P h.1 ∧ P h.2) → P frm → (∀ l ∈ acc, ∃ a b, P a ∧ P b ∧ l = Line.of3 a b) →
    P r.1 ∧ ∀ l ∈ r.2, ∃ a b, P a ∧ P b ∧ l = Line.of3 a b
  | [], frm, d, acc, r, h, _, hf, ha => by
    unfold spanLoop at h; injection h with h; subst h; exact ⟨hf, ha⟩
  | h :: hs, frm, d, acc, r, hr, hh, hf, ha => by
    unfold spanLoop at hr
    dsimp only at hr
    obtain ⟨b1, b2⟩ := hh h (by simp)
    split_ifs at hr
    all_goals
      refine spanLoop_pred P p0 hs _ _ _ r hr (fun x hx => hh x (by simp [hx])) ?_ ?_
      · first | exact b2 | exact hf
      · first
        | exact ha
        | intro l hl
          rcases List.mem_append.mp hl with hl | hl
          · exact ha l hl
          · rw [List.mem_singleton] at hl; exact ⟨_, _, hf, b1, hl⟩

theorem edgeLines_pred (P : V3 (Fl R) → Prop) (ml : Fl R) (p : Edge (Fl R)) (h1 : P p.1) (h2 : P p.2) (hs : List (Edge (Fl R))) (hh : ∀ h ∈ hs, P h.1 ∧ P h.2) (r) (h : edgeLines ml p hs = .ok r) :
    ∀ l ∈ r, ∃ a b, P a ∧ P b ∧ l = Line.of3 a b := by
  unfold edgeLines at h
  cases hl : spanLoop p.1 hs p.1 (FP.lit 0) [] with
  | error a => rw [hl] at h; cases h
  | ok x =>
    rw [hl] at h
    obtain ⟨h3, h4⟩ := spanLoop_pred P p.1 hs _ _ _ x hl hh h1 (by simp)
    dsimp only [bind, Except.bind, pure, Except.pure] at h
    split_ifs at h
    · injection h with h; subst h
      intro l hl
      rcases List.mem_append.mp hl with hl | hl
      · exact h4 l hl
      · rw [List.mem_singleton] at hl; exact ⟨_, _, h3, h2, hl⟩
    · injection h with h; subst h; exact h4

variable (hR : R.Accurate)
include hR

/-- the spans found for an edge: which facet each comes from, and which facets give one -/
theorem hides_split {M : ℝ} (hM : Small M) (S : Sorter) (hS : SortOK S) {s : STLFile (Fl R)} (hw : WellIndexed s) (hx : ∀ f ∈ s.facets, FacetExact M f) {cs}
    (h : edgeCrosses s.edges s.unseen = .ok cs) {v : Nat} {m} (hm : cs[v]? = some m) {ev : Edge (Fl R)} (hv : s.edges[v]? = some ev) {hs}
    (hh : edgeHides S (s.facets.zip s.faceEdge) m v ev = .ok hs) :
    (∀ k ∈ hs, ∃ (i : Nat) (f : Facet (Fl R)) (t : Nat × Nat × Nat), s.facets[i]? = some f ∧ s.faceEdge[i]? = some t ∧ faceHides S m v ev f t = .ok (some k)) ∧
    (∀ (i : Nat) (f : Facet (Fl R)) (t : Nat × Nat × Nat), s.facets[i]? = some f → s.faceEdge[i]? = some t → ∃ o, faceHides S m v ev f t = .ok o ∧ ∀ k, o = some k → k ∈ hs) ∧
    (∀ k ∈ hs, ∃ u w, At M (ev.1.val, ev.2.val) k.1 u ∧ At M (ev.1.val, ev.2.val) k.2 w) ∧
    ((∃ L, Edgy M (ev.1.val, ev.2.val) L) → hs.Pairwise (fun a b => FP.lt (ev.1 - b.1).sqNorm (ev.1 - a.1).sqNorm = false)) := by
  obtain ⟨a1, a2⟩ := edge_exact hw hx (List.mem_of_getElem? hv)
  have h0 := at_first hM.one (E := (ev.1.val, ev.2.val)) a1
  unfold edgeHides at hh
  obtain ⟨os, hms, hh⟩ := except_bind_ok hh
  injection hh with hh
  have hf2 := mapM_except_forall _ _ _ hms
  have hperm := hS.perm (fun l r : Edge (Fl R) => FP.lt (ev.1 - l.1).sqNorm (ev.1 - r.1).sqNorm) (os.filterMap id)
  have p1 : ∀ k ∈ os.filterMap id, ∃ (i : Nat) (f : Facet (Fl R)) (t : Nat × Nat × Nat), s.facets[i]? = some f ∧ s.faceEdge[i]? = some t ∧ faceHides S m v ev f t = .ok (some k) := by
    intro k hk
    obtain ⟨x, hxm, hxe⟩ := List.mem_filterMap.mp hk
    simp only [id] at hxe; subst hxe
    obtain ⟨p, hp, hfp⟩ := forall₂_right_mem hf2 hxm
    obtain ⟨i, hi⟩ := List.getElem?_of_mem hp
    rw [List.getElem?_zip_eq_some] at hi
    exact ⟨i, p.1, p.2, hi.1, hi.2, hfp⟩
  have p3 : ∀ k ∈ os.filterMap id, ∃ u w, At M (ev.1.val, ev.2.val) k.1 u ∧ At M (ev.1.val, ev.2.val) k.2 w := by
    intro k hk
    obtain ⟨i, f, t, hf, ht, hfp⟩ := p1 k hk
    obtain ⟨hne, ⟨x1, hx1, e1⟩, ⟨x2, hx2, e2⟩⟩ := faceHides_cand S hS m v ev f t k hfp
    obtain ⟨u, hu⟩ := cand_at hR hM hw hx h hm hv hf ht x1 hx1
    obtain ⟨w, hw⟩ := cand_at hR hM hw hx h hm hv hf ht x2 hx2
    exact ⟨u, w, e1 ▸ hu, e2 ▸ hw⟩
  rw [← hh]
  refine ⟨fun k hk => p1 k (hperm.subset hk), ?_, fun k hk => p3 k (hperm.subset hk), ?_⟩
  · intro i f t hf ht
    have : (f, t) ∈ s.facets.zip s.faceEdge := List.mem_of_getElem? (i := i) (by rw [List.getElem?_zip_eq_some]; exact ⟨hf, ht⟩)
    obtain ⟨o, ho, hfo⟩ := forall₂_mem_left hf2 this
    exact ⟨o, hfo, fun k hk => hperm.symm.subset (List.mem_filterMap.2 ⟨o, ho, by rw [hk]; rfl⟩)⟩
  · rintro ⟨L, hE⟩
    refine hS.sorted _ _ (strictWeak_key (fun x => x ∈ os.filterMap id) (fun k : Edge (Fl R) => (ev.1 - k.1).sqNorm) ?_)
    intro k hk
    obtain ⟨u, w, hu, hw⟩ := p3 k hk
    obtain ⟨z, hz, -⟩ := dist_at hR hM hE h0 hu
    show FP.Ok (ev.1 - k.1).sqNorm
    rw [hz]
    show Ext.eq (.fin z) (.fin z) = true
    simp [Ext.eq]

/-- every line of a view is a part of an edge, and no facet hides any of it -/
theorem toLines_hidden {M : ℝ} (hM : Small M) (S : Sorter) (hS : SortOK S) {s : STLFile (Fl R)} (hw : WellIndexed s) (hx : ∀ f ∈ s.facets, FacetExact M f)
    (ls) (h : s.toLines S = .ok ls) : ∀ l ∈ ls, ∃ v ev, s.edges[v]? = some ev ∧ v < s.unseen ∧ ∃ x y, PartLine M (ev.1.val, ev.2.val) l x y ∧
      (FarApart (M / 2 ^ 11) ev.1.val ev.2.val → x ≤ y + 1 / 2 ^ 13 ∧
        ∀ f ∈ s.facets, ∀ a b, PartBy M (ev.1.val, ev.2.val) f.val a b → b ≤ x + 1 / 2 ^ 11 ∨ y ≤ a + 1 / 2 ^ 11) := by
  obtain ⟨cs, hcs, h, -⟩ := toLines_split h
  intro l hl
  obtain ⟨v, ev, m, hs, r, hvu, hv, hm, hh, hr, hlr⟩ := h l hl
  refine ⟨v, ev, hv, hvu, ?_⟩
  obtain ⟨a1, a2⟩ := edge_exact hw hx (List.mem_of_getElem? hv)
  have h0 := at_first hM.one (E := (ev.1.val, ev.2.val)) a1
  have h1 := at_last hM.one (E := (ev.1.val, ev.2.val)) a2
  obtain ⟨s1, s2, s3, s4⟩ := hides_split hR hM S hS hw hx hcs hm hv hh
  by_cases hfar : FarApart (M / 2 ^ 11) ev.1.val ev.2.val
  · obtain ⟨L, hE⟩ := edgy_of hM.one (E := (ev.1.val, ev.2.val)) a1.2 a2.2 hfar
    obtain ⟨x, y, k1, k2, k3⟩ := (edgeLines_parts hR hM hE h0 h1 hs (s4 ⟨L, hE⟩) s3 r hr).1 l hlr
    refine ⟨x, y, k1, fun _ => ⟨k2, ?_⟩⟩
    intro f hf a b hp
    obtain ⟨i, hi⟩ := List.getElem?_of_mem hf
    obtain ⟨t, ht⟩ : ∃ t, s.faceEdge[i]? = some t := by
      have := (List.getElem?_eq_some_iff.1 hi).1
      exact ⟨_, List.getElem?_eq_getElem (by rw [hw.faceLen]; exact this)⟩
    obtain ⟨o, ho, hok⟩ := s2 i f t hi ht
    obtain ⟨k, u, w, ek, ku, kw, nu, nw⟩ := faceHides_part hR hM S hS hw hx hcs hvu hm hv hE hi ht hp o ho
    have := k3 k (hok k ek) u w ku kw
    rw [abs_le] at nu nw
    rcases this with g | g
    · left; norm_num at *; linarith
    · right; norm_num at *; linarith
  · obtain ⟨a, b, ⟨x, ha⟩, ⟨y, hb⟩, e⟩ := edgeLines_pred (fun p => ∃ σ, At M (ev.1.val, ev.2.val) p σ) _ ev ⟨0, h0⟩ ⟨1, h1⟩ hs
      (fun k hk => by obtain ⟨u, w, g1, g2⟩ := s3 k hk; exact ⟨⟨u, g1⟩, ⟨w, g2⟩⟩) r hr l hlr
    exact ⟨x, y, ⟨a, b, e, ha, hb⟩, fun hh => absurd hh hfar⟩

/-- what no facet hides of an edge is in a line of the view -/
theorem toLines_visible {M : ℝ} (hM : Small M) (S : Sorter) (hS : SortOK S) {s : STLFile (Fl R)} (hw : WellIndexed s) (hx : ∀ f ∈ s.facets, FacetExact M f)
    (ls) (h : s.toLines S = .ok ls) {v : Nat} {ev : Edge (Fl R)} (hv : s.edges[v]? = some ev) (hvu : v < s.unseen)
    (hfar : FarApart (M / 2 ^ 11) ev.1.val ev.2.val) {σ : ℝ} (h1 : 1 / 2 ^ 11 ≤ σ) (h2 : σ ≤ 1 - 1 / 2 ^ 11)
    (hc : ∀ (i : Nat) (f : Facet (Fl R)) (t : Nat × Nat × Nat), s.facets[i]? = some f → s.faceEdge[i]? = some t →
      (v = t.1 ∨ v = t.2.1 ∨ v = t.2.2) ∨ (∃ P, (P = ev.1.val ∨ P = ev.2.val) ∧ ClearBut M (ev.1.val, ev.2.val) f.val P) ∨
      ∃ a b, PartBy M (ev.1.val, ev.2.val) f.val a b ∧ (σ + 1 / 2 ^ 11 ≤ a ∨ b + 1 / 2 ^ 11 ≤ σ)) :
    ∃ l ∈ ls, ∃ x y, PartLine M (ev.1.val, ev.2.val) l x y ∧ x ≤ σ ∧ σ ≤ y := by
  obtain ⟨cs, hcs, -, h⟩ := toLines_split h
  obtain ⟨m, hs, r, hm, hh, hr, hsub⟩ := h v ev hvu hv
  obtain ⟨a1, a2⟩ := edge_exact hw hx (List.mem_of_getElem? hv)
  have k0 := at_first hM.one (E := (ev.1.val, ev.2.val)) a1
  have k1 := at_last hM.one (E := (ev.1.val, ev.2.val)) a2
  obtain ⟨s1, s2, s3, s4⟩ := hides_split hR hM S hS hw hx hcs hm hv hh
  obtain ⟨L, hE⟩ := edgy_of hM.one (E := (ev.1.val, ev.2.val)) a1.2 a2.2 hfar
  have hne : ev.1.val ≠ ev.2.val := by
    intro e
    have := hM.one
    rw [e] at hfar
    unfold FarApart at hfar
    simp at hfar
    linarith
  obtain ⟨l, hl, x, y, g1, g2, g3⟩ := (edgeLines_parts hR hM hE k0 k1 hs (s4 ⟨L, hE⟩) s3 r hr).2 σ (by norm_num at *; linarith) (by norm_num at *; linarith) (by
    intro k hk
    obtain ⟨i, f, t, hf, ht, hfh⟩ := s1 k hk
    obtain ⟨hn, ⟨x1, hx1, e1⟩, ⟨x2, hx2, e2⟩⟩ := faceHides_cand S hS m v ev f t k hfh
    rcases hc i f t hf ht with hown | ⟨P, hP, hcl⟩ | ⟨a, b, hp, hab⟩
    · omega
    · obtain ⟨u, hu⟩ : ∃ u : ℝ, (P = ev.1.val ∧ u = 0) ∨ (P = ev.2.val ∧ u = 1) := by
        rcases hP with h | h
        · exact ⟨0, Or.inl ⟨h, rfl⟩⟩
        · exact ⟨1, Or.inr ⟨h, rfl⟩⟩
      obtain ⟨σ1, q1, n1⟩ := cand_end hR hM hw hx hcs hm hv hf ht hu hne hcl x1 hx1
      obtain ⟨σ2, q2, n2⟩ := cand_end hR hM hw hx hcs hm hv hf ht hu hne hcl x2 hx2
      refine ⟨σ1, σ2, e1 ▸ q1, e2 ▸ q2, ?_⟩
      rw [abs_le] at n1 n2
      rcases hu with ⟨-, rfl⟩ | ⟨-, rfl⟩
      · right; norm_num at *; linarith
      · left; norm_num at *; linarith
    · obtain ⟨k', u, w, ek, ku, kw, nu, nw⟩ := faceHides_part hR hM S hS hw hx hcs hvu hm hv hE hf ht hp _ hfh
      injection ek with ek; subst ek
      refine ⟨u, w, ku, kw, ?_⟩
      rw [abs_le] at nu nw
      rcases hab with g | g
      · left; norm_num at *; linarith
      · right; norm_num at *; linarith)
  exact ⟨l, hsub l hl, x, y, g1, g2, g3⟩

end
end S2P
