import Verif.Lemmas.SortIndep
import Verif.Props.Hidden
import Verif.Props.Points
import Verif.Spec.SameShape
import Mathlib.Data.List.Permutation
import Mathlib.Data.List.Perm.Basic

set_option linter.unusedSectionVars false
set_option linter.unusedVariables false
set_option linter.unusedSimpArgs false

/-! # The drawing does not depend on the order of facets -/

namespace S2P

section
variable {K : Type} [Field K] [LinearOrder K] [IsStrictOrderedRing K] [FloorRing K] [Trans K]

/-! ## The loop over spans depends only on the set of spans -/

theorem segLoop_skip (s : K × K) (q : List (K × K)) : ∀ (p : List (K × K)) (f : K), s.1 ≤ s.2 → s.2 ≤ f →
    segLoop (p ++ s :: q) f = segLoop (p ++ q) f
  | [], f, h, hf => by
    simp only [List.nil_append, segLoop, if_neg (not_lt.2 (h.trans hf)), max_eq_left hf]
  | x :: p, f, h, hf => by
    simp only [List.cons_append, segLoop, segLoop_skip s q p (max f x.2) h (hf.trans (le_max_left _ _))]

theorem segLoop_drop (s : K × K) (hs : s.1 ≤ s.2) : ∀ (l : List (K × K)) (f : K), s.2 ≤ f →
    segLoop (l.filter (fun x => x ≠ s)) f = segLoop l f
  | [], f, _ => rfl
  | x :: l, f, hf => by
    by_cases hx : x = s
    · subst hx
      rw [List.filter_cons_of_neg (by simp), segLoop_drop x hs l f hf]
      exact (segLoop_skip x l [] f hs hf).symm
    · rw [List.filter_cons_of_pos (by simpa using hx)]
      simp only [segLoop, segLoop_drop s hs l (max f x.2) (hf.trans (le_max_left _ _))]

theorem segLoop_set : ∀ (n : Nat) (l l' : List (K × K)) (f : K), l.length ≤ n → (∀ s, s ∈ l ↔ s ∈ l') → (∀ s ∈ l, s.1 ≤ s.2) →
    l.Pairwise (fun a b => a.1 ≤ b.1) → l'.Pairwise (fun a b => a.1 ≤ b.1) → segLoop l f = segLoop l' f
  | n, [], l', f, _, h, _, _, _ => by
    have : l' = [] := List.eq_nil_iff_forall_not_mem.2 fun s hs => by simpa using (h s).2 hs
    rw [this]
  | 0, x :: t, l', f, hn, _, _, _, _ => by simp at hn
  | n + 1, x :: t, l', f, hn, h, hw, hs, hs' => by
    obtain ⟨p, q, rfl⟩ := List.append_of_mem ((h x).1 (List.mem_cons_self))
    have hp : ∀ s ∈ p, s.1 ≤ s.2 ∧ s.1 = x.1 := by
      intro s hsp
      have h1 : s ∈ x :: t := (h s).2 (by simp [hsp])
      refine ⟨hw s h1, le_antisymm ?_ ?_⟩
      · exact (List.pairwise_append.1 hs').2.2 s hsp x (by simp)
      · rcases List.mem_cons.1 h1 with rfl | h1
        · exact le_refl _
        · exact (List.pairwise_cons.1 hs).1 s h1
    have hx := hw x (by simp)
    rw [segLoop_front x hx q p f hp]
    have e1 := segLoop_drop x hx t (max f x.2) (le_max_right _ _)
    have e2 := segLoop_drop x hx (p ++ q) (max f x.2) (le_max_right _ _)
    have := segLoop_set n (t.filter (fun y => y ≠ x)) ((p ++ q).filter (fun y => y ≠ x)) (max f x.2)
      (by
        have := List.length_filter_le (fun y => decide (y ≠ x)) t
        simp at hn; omega)
      (by
        intro s
        simp only [List.mem_filter, decide_eq_true_eq]
        have := h s
        simp only [List.mem_cons, List.mem_append] at this ⊢
        constructor
        · rintro ⟨h1, h2⟩
          refine ⟨?_, h2⟩
          rcases this.1 (Or.inr h1) with h | h | h
          · exact Or.inl h
          · exact absurd h h2
          · exact Or.inr h
        · rintro ⟨h1, h2⟩
          refine ⟨?_, h2⟩
          rcases this.2 (by tauto) with h | h
          · exact absurd h h2
          · exact h)
      (fun s hs => hw s (by simp [(List.mem_filter.1 hs).1]))
      ((List.pairwise_cons.1 hs).2.sublist List.filter_sublist)
      ((hs'.sublist (by simp)).sublist List.filter_sublist)
    rw [e1, e2] at this
    simp only [segLoop, this]

theorem edgeSegs_set (l l' : List (K × K)) (h : ∀ s, s ∈ l ↔ s ∈ l') (hw : ∀ s ∈ l, s.1 ≤ s.2)
    (hs : l.Pairwise (fun a b => a.1 ≤ b.1)) (hs' : l'.Pairwise (fun a b => a.1 ≤ b.1)) : edgeSegs l = edgeSegs l' := by
  unfold edgeSegs
  rw [segLoop_set l.length l l' 0 (le_refl _) h hw hs hs']

/-! ## What a face hides, without a table -/

/-- the candidate points of the edge for the face -/
def Meets (e : Edge K) (f : Tri K) (t : K) : Prop :=
  0 ≤ t ∧ t ≤ 1 ∧ ((t = 0 ∧ behind f.fin e.1.fin = true) ∨ (t = 1 ∧ behind f.fin e.2.fin = true) ∨
    ∃ g : Edge K, (g = (f.a, f.b) ∨ g = (f.b, f.c) ∨ g = (f.c, f.a)) ∧ ¬ PageParallel e g ∧ CrossedAt e g (edgeAt e t))

/-- the stretch hidden -/
structure Covers (e : Edge K) (f : Tri K) (s : K × K) : Prop where
  lo : Meets e f s.1
  hi : Meets e f s.2
  lt : s.1 < s.2
  all : ∀ t, Meets e f t → s.1 ≤ t ∧ t ≤ s.2

theorem edgeAt_rev (a b : V3 K) (t : K) : edgeAt (a, b) t = edgeAt (b, a) (1 - t) := by
  unfold edgeAt; ext <;> simp [V3.smul] <;> ring

theorem crossedAt_rev (e : Edge K) (a b p : V3 K) (h : CrossedAt e (a, b) p) : CrossedAt e (b, a) p := by
  obtain ⟨s, t, h1, h2, h3, h4, h5, h6, h7⟩ := h
  refine ⟨s, 1 - t, h1, h2, by linarith, by linarith, h5, ?_, ?_⟩
  · rw [← edgeAt_rev]; exact h6
  · rw [← edgeAt_rev]; exact h7

theorem pageParallel_rev (e : Edge K) (a b : V3 K) (h : PageParallel e (a, b)) : PageParallel e (b, a) := by
  simp only [PageParallel] at *
  linear_combination -h

theorem side_cross {e g : Edge K} {a b : V3 K} (hg : IsSide g a b) (p : V3 K) :
    (¬ PageParallel e g ∧ CrossedAt e g p) ↔ (¬ PageParallel e (a, b) ∧ CrossedAt e (a, b) p) := by
  rcases hg with rfl | rfl
  · rfl
  · exact ⟨fun h => ⟨fun h' => h.1 (pageParallel_rev _ _ _ h'), crossedAt_rev _ _ _ _ h.2⟩,
      fun h => ⟨fun h' => h.1 (pageParallel_rev _ _ _ h'), crossedAt_rev _ _ _ _ h.2⟩⟩

theorem cand_meets {es : List (Edge K)} {unseen v : Nat} {e : Edge K} {cs : List (Nat × V3 (Ext K))} (hc : CrossRec es unseen v e cs)
    (f : Tri K) (el : Nat × Nat × Nat) (hs : SidesAt es f el) (hv : ¬(v = el.1 ∨ v = el.2.1 ∨ v = el.2.2)) (t : K) :
    Cand cs e f.fin el t ↔ Meets e f t := by
  obtain ⟨⟨g0, q0, s0⟩, ⟨g1, q1, s1⟩, ⟨g2, q2, s2⟩⟩ := hs
  have one : ∀ (n : Nat) (g : Edge K) (a b : V3 K), es[n]? = some g → IsSide g a b → v ≠ n →
      ((∃ c ∈ cs, c.1 = n ∧ c.2 = (edgeAt e t).fin) ↔ (¬ PageParallel e (a, b) ∧ CrossedAt e (a, b) (edgeAt e t))) := by
    intro n g a b hg hside hvn
    rw [← side_cross hside]
    constructor
    · rintro ⟨⟨u, p⟩, hcm, rfl, hp⟩
      obtain ⟨g', q, _, hg', hq, hpar, hcr⟩ := (hc.mem u p).1 hcm
      simp only at hp hg
      rw [hg] at hg'; injection hg' with hg'; subst hg'
      rw [hq] at hp
      rw [(V3.fin_injective _ _).1 hp] at hcr
      exact ⟨hpar, hcr⟩
    · rintro ⟨hpar, hcr⟩
      exact ⟨(n, (edgeAt e t).fin), (hc.mem _ _).2 ⟨g, edgeAt e t, fun h => hvn h.symm, hg, rfl, hpar, hcr⟩, rfl, rfl⟩
  have o0 := one _ _ _ _ q0 s0 (fun h => hv (Or.inl h))
  have o1 := one _ _ _ _ q1 s1 (fun h => hv (Or.inr (Or.inl h)))
  have o2 := one _ _ _ _ q2 s2 (fun h => hv (Or.inr (Or.inr h)))
  unfold Cand Meets
  refine and_congr_right fun _ => and_congr_right fun _ => or_congr_right (or_congr_right ?_)
  constructor
  · rintro ⟨c, hc, hn | hn | hn, hp⟩
    · exact ⟨_, Or.inl rfl, o0.1 ⟨c, hc, hn, hp⟩⟩
    · exact ⟨_, Or.inr (Or.inl rfl), o1.1 ⟨c, hc, hn, hp⟩⟩
    · exact ⟨_, Or.inr (Or.inr rfl), o2.1 ⟨c, hc, hn, hp⟩⟩
  · rintro ⟨g, rfl | rfl | rfl, h⟩
    · obtain ⟨c, hc, hn, hp⟩ := o0.2 h; exact ⟨c, hc, Or.inl hn, hp⟩
    · obtain ⟨c, hc, hn, hp⟩ := o1.2 h; exact ⟨c, hc, Or.inr (Or.inl hn), hp⟩
    · obtain ⟨c, hc, hn, hp⟩ := o2.2 h; exact ⟨c, hc, Or.inr (Or.inr hn), hp⟩

theorem faceSpan_covers {es : List (Edge K)} {unseen v : Nat} {e : Edge K} {cs : List (Nat × V3 (Ext K))} (hc : CrossRec es unseen v e cs)
    (f : Tri K) (el : Nat × Nat × Nat) (hs : SidesAt es f el) (hv : ¬(v = el.1 ∨ v = el.2.1 ∨ v = el.2.2)) (s : K × K) :
    FaceSpan cs e f.fin el s ↔ Covers e f s := by
  have h := cand_meets hc f el hs hv
  constructor
  · rintro ⟨h1, h2, h3, h4⟩
    exact ⟨(h _).1 h1, (h _).1 h2, h3, fun t ht => h4 t ((h t).2 ht)⟩
  · rintro ⟨h1, h2, h3, h4⟩
    exact ⟨(h _).2 h1, (h _).2 h2, h3, fun t ht => h4 t ((h t).1 ht)⟩

/-- segments of an edge, described without a table: the complement of the stretches covered by facets not having the edge as a side -/
def SegsOf (ts : List (Tri K)) (e : Edge K) (segs : List (K × K)) : Prop :=
  ∃ spans : List (K × K), segs = edgeSegs spans ∧ spans.Pairwise (fun a b => a.1 ≤ b.1) ∧ (∀ s ∈ spans, s.1 ≤ s.2) ∧
    ∀ s, s ∈ spans ↔ ∃ f ∈ ts, ¬ f.HasSide e ∧ Covers e f s

theorem SegsOf.unique {ts ts' : List (Tri K)} {e : Edge K} {segs segs' : List (K × K)} (h : SegsOf ts e segs) (h' : SegsOf ts' e segs')
    (hts : ∀ s, (∃ f ∈ ts, ¬ f.HasSide e ∧ Covers e f s) ↔ (∃ f ∈ ts', ¬ f.HasSide e ∧ Covers e f s)) : segs = segs' := by
  obtain ⟨sp, rfl, h1, h2, h3⟩ := h
  obtain ⟨sp', rfl, h1', h2', h3'⟩ := h'
  exact edgeSegs_set sp sp' (fun s => by rw [h3, h3', hts]) h2 h1 h1'

/-- the lines of a table of front facets, edge by edge -/
theorem toLines_segsOf (S : Sorter) (hS : SortOK S) (s : STLFile (Ext K)) (ts : List (Tri K)) (es : List (Edge K))
    (hts : s.facets = ts.map Tri.fin) (hes : s.edges = es.map Edge.fin) (hfr : ∀ f ∈ ts, f.Front) (hw : WellIndexed s) :
    ∃ L : List (List (K × K)), L.length = s.unseen ∧ s.toLines S = .ok ((List.zipWith segLines es L).flatten) ∧
      ∀ (v : Nat) (e : Edge K) (segs : List (K × K)), es[v]? = some e → L[v]? = some segs → SegsOf ts e segs := by
  have hun : s.unseen ≤ es.length := by have := hw.unseenLe; rwa [hes, List.length_map] at this
  obtain ⟨L, h1, h2, h3⟩ := toLines_spec S hS s es hes hun
  refine ⟨L, h1, h2, ?_⟩
  intro v e segs hv hL
  obtain ⟨cs, spans, hd⟩ := h3 v e segs hv hL
  have rcd : ∀ p ∈ s.facets.zip s.faceEdge, ∃ f ∈ ts, p.1 = f.fin ∧ SidesAt es f p.2 := by
    intro p hp
    obtain ⟨i, hi⟩ := List.getElem?_of_mem hp
    have hz := List.getElem?_zip_eq_some.1 hi
    obtain ⟨hf, hel⟩ := hz
    obtain ⟨f, hf1, hf2⟩ : ∃ f ∈ ts, f.fin = p.1 := by
      have := List.mem_of_getElem? hf; rw [hts] at this; exact List.mem_map.1 this
    have hk := hw.faceOk i p.1 p.2 hf hel
    rw [← hf2] at hk
    have conv : ∀ (n : Nat) (a b : V3 K), (∃ e', s.edges[n]? = some e' ∧ SameEdge e' a.fin b.fin) → ∃ g, es[n]? = some g ∧ IsSide g a b := by
      rintro n a b ⟨e', h1, h2⟩
      rw [hes, List.getElem?_map] at h1
      cases hg : es[n]? with
      | none => rw [hg] at h1; cases h1
      | some g =>
        rw [hg] at h1
        injection h1 with h1
        rw [← h1] at h2
        exact ⟨g, rfl, (sameEdge_fin g a b).1 h2⟩
    exact ⟨f, hf1, hf2.symm, conv _ _ _ hk.1, conv _ _ _ hk.2.1, conv _ _ _ hk.2.2⟩
  have face : ∀ f ∈ ts, ∃ el, (f.fin, el) ∈ s.facets.zip s.faceEdge := by
    intro f hf
    have hm : f.fin ∈ s.facets := by rw [hts]; exact List.mem_map_of_mem hf
    obtain ⟨i, hi⟩ := List.getElem?_of_mem hm
    have hlt : i < s.faceEdge.length := by rw [hw.faceLen]; exact (List.getElem?_eq_some_iff.1 hi).1
    refine ⟨s.faceEdge[i], List.mem_of_getElem? (i := i) ?_⟩
    simp [List.zip, List.getElem?_zipWith, hi, List.getElem?_eq_getElem hlt]
  have uniq : ∀ (n : Nat) (g : Edge K) (a b : V3 K), es[n]? = some g → IsSide g a b → (e = (a, b) ∨ e = (b, a)) → v = n := by
    intro n g a b hg hs he
    by_contra hne
    have hpw := hw.distinct
    rw [hes, List.pairwise_map, List.pairwise_iff_getElem] at hpw
    obtain ⟨lv, gv⟩ := List.getElem?_eq_some_iff.1 hv
    obtain ⟨ln, gn⟩ := List.getElem?_eq_some_iff.1 hg
    rcases Nat.lt_or_gt_of_ne hne with hlt | hlt
    · apply hpw v n lv ln hlt
      rw [gv, gn, sameEdge_fin]
      rcases hs with rfl | rfl <;> rcases he with rfl | rfl <;> simp [IsSide]
    · apply hpw n v ln lv hlt
      rw [gv, gn, sameEdge_fin]
      rcases hs with rfl | rfl <;> rcases he with rfl | rfl <;> simp [IsSide]
  have sideIdx : ∀ f el, SidesAt es f el → (f.HasSide e ↔ (v = el.1 ∨ v = el.2.1 ∨ v = el.2.2)) := by
    rintro f el ⟨⟨g0, q0, s0⟩, ⟨g1, q1, s1⟩, ⟨g2, q2, s2⟩⟩
    constructor
    · intro hside
      rcases hside with h | h | h | h | h | h
      · exact Or.inl (uniq _ _ _ _ q0 s0 (Or.inl h))
      · exact Or.inr (Or.inl (uniq _ _ _ _ q1 s1 (Or.inl h)))
      · exact Or.inr (Or.inr (uniq _ _ _ _ q2 s2 (Or.inl h)))
      · exact Or.inl (uniq _ _ _ _ q0 s0 (Or.inr h))
      · exact Or.inr (Or.inl (uniq _ _ _ _ q1 s1 (Or.inr h)))
      · exact Or.inr (Or.inr (uniq _ _ _ _ q2 s2 (Or.inr h)))
    · unfold Tri.HasSide
      rintro (rfl | rfl | rfl)
      · rw [hv] at q0; injection q0 with q0; subst q0; unfold IsSide at s0; tauto
      · rw [hv] at q1; injection q1 with q1; subst q1; unfold IsSide at s1; tauto
      · rw [hv] at q2; injection q2 with q2; subst q2; unfold IsSide at s2; tauto
  obtain ⟨f0, hf0, hs0⟩ : ∃ f ∈ ts, f.HasSide e := by
    have hm : Edge.fin e ∈ s.edges := by rw [hes]; exact List.mem_map_of_mem (List.mem_of_getElem? hv)
    obtain ⟨F, hF, sd, hsd, hor⟩ := hw.edgeOk _ hm
    rw [hts] at hF
    obtain ⟨f, hf, rfl⟩ := List.mem_map.1 hF
    refine ⟨f, hf, ?_⟩
    obtain ⟨x, y⟩ := e
    simp only [sidesOf, List.mem_cons, List.not_mem_nil, or_false] at hsd
    unfold Tri.HasSide
    simp only [Prod.mk.injEq]
    rcases hsd with rfl | rfl | rfl <;> simp only [Prod.mk.injEq, V3.fin_injective] at hor <;> tauto
  have hne : e.1 ≠ e.2 := by
    intro heq
    have hpos := (hfr f0 hf0).area_pos
    obtain ⟨x, y⟩ := e
    simp only at heq; subst heq
    unfold Tri.HasSide at hs0
    simp only [Prod.mk.injEq] at hs0
    rcases hs0 with ⟨h1, h2⟩ | ⟨h1, h2⟩ | ⟨h1, h2⟩ | ⟨h1, h2⟩ | ⟨h1, h2⟩ | ⟨h1, h2⟩ <;>
      (simp only [area, ← h1, ← h2] at hpos; ring_nf at hpos; exact lt_irrefl _ hpos)
  refine ⟨spans, hd.nondeg hne, hd.sorted, fun s hs => (hd.range s hs).2.1, ?_⟩
  intro sp
  constructor
  · intro hsp
    obtain ⟨p, hp, hnv, hfs⟩ := hd.src sp hsp
    obtain ⟨f, hf, hpf, hsides⟩ := rcd p hp
    rw [hpf] at hfs
    exact ⟨f, hf, fun hs => hnv ((sideIdx f p.2 hsides).1 hs), (faceSpan_covers hd.rcd f p.2 hsides hnv sp).1 hfs⟩
  · rintro ⟨f, hf, hns, hcov⟩
    obtain ⟨el, hel⟩ := face f hf
    obtain ⟨f', hf', hff, hsides⟩ := rcd _ hel
    have hff : f = f' := by
      simp only [Facet.mk.injEq, V3.fin_injective, Ext.fin_inj] at hff
      obtain ⟨n, a, b, c, r⟩ := f
      obtain ⟨n', a', b', c', r'⟩ := f'
      simp only at hff
      obtain ⟨rfl, rfl, rfl, rfl, rfl⟩ := hff
      rfl
    subst hff
    have hnv : ¬(v = el.1 ∨ v = el.2.1 ∨ v = el.2.2) := fun h => hns ((sideIdx f el hsides).2 h)
    have hfs := (faceSpan_covers hd.rcd f el hsides hnv sp).2 hcov
    rcases hd.all hne _ hel hnv with ⟨sp', hsp', hfs'⟩ | hall
    · rw [hfs.unique hfs']; exact hsp'
    · exact absurd (hall _ _ hfs.lo hfs.hi) hfs.lt.ne

/-! ## Which edges are drawn -/

theorem edge_fin_of_same {e : Edge (Ext K)} {a b : V3 K} (he : ∃ g : Edge K, e = g.fin) (h : SameEdge e a.fin b.fin) : e = (a.fin, b.fin) ∨ e = (b.fin, a.fin) := by
  obtain ⟨g, rfl⟩ := he
  rcases (sameEdge_fin g a b).1 h with rfl | rfl
  · exact Or.inl rfl
  · exact Or.inr rfl

theorem eTie_fin (g h : Edge K) (ht : eTie g.fin h.fin = true) : g = h := by
  rw [eTie_iff _ _ ⟨V3.ok_fin _, V3.ok_fin _⟩ ⟨V3.ok_fin _, V3.ok_fin _⟩, ← samePt_iff _ _ (V3.ok_fin _) (V3.ok_fin _),
    ← samePt_iff _ _ (V3.ok_fin _) (V3.ok_fin _), samePt_fin, samePt_fin] at ht
  exact Prod.ext ht.1 ht.2

theorem edgeKey_fin (a b : V3 K) : ∃ g : Edge K, edgeKey a.fin b.fin = g.fin := by
  unfold edgeKey
  split_ifs
  · exact ⟨(a, b), rfl⟩
  · exact ⟨(b, a), rfl⟩

/-- the corners are finite -/
def Facet.CornersFin (f : Facet (Ext K)) : Prop := ∃ a b c : V3 K, f.e0 = a.fin ∧ f.e1 = b.fin ∧ f.e2 = c.fin

theorem Facet.CornersFin.ok {f : Facet (Ext K)} (h : f.CornersFin) : Facet.Ok f := by
  obtain ⟨a, b, c, h0, h1, h2⟩ := h
  unfold Facet.Ok
  rw [h0, h1, h2]; exact ⟨V3.ok_fin _, V3.ok_fin _, V3.ok_fin _⟩

theorem sides_fin {f : Facet (Ext K)} (h : f.CornersFin) : ∀ sd ∈ sidesOf f, ∃ p q : V3 K, sd = (p.fin, q.fin) := by
  obtain ⟨a, b, c, h0, h1, h2⟩ := h
  simp only [sidesOf, List.mem_cons, List.not_mem_nil, or_false, h0, h1, h2]
  rintro sd (rfl | rfl | rfl)
  · exact ⟨a, b, rfl⟩
  · exact ⟨b, c, rfl⟩
  · exact ⟨c, a, rfl⟩

/-- the table holds the keys of the sides -/
theorem mem_edges (fs : List (Facet (Ext K))) (hf : ∀ f ∈ fs, f.CornersFin) (s : STLFile (Ext K)) (hs : index fs = .ok s) (e : Edge (Ext K)) :
    e ∈ s.edges ↔ ∃ f ∈ fs, ∃ sd ∈ sidesOf f, e = edgeKey sd.1 sd.2 := by
  have hok : ∀ f ∈ fs, Facet.Ok f := fun f h => (hf f h).ok
  have inv := addFacets_inv fs (sidesFrom_ok fs hok)
  obtain ⟨s', ef, h1, h2, h3, -⟩ := index_spec fs hok
  rw [hs] at h1; injection h1 with h1; subst h1
  have src : ∀ e ∈ s.edges, ∃ f ∈ fs, ∃ sd ∈ sidesOf f, e = edgeKey sd.1 sd.2 := by
    intro e he
    obtain ⟨d, hd, hk⟩ := inv.src e (h3.mem_iff.1 he)
    obtain ⟨i, f, hf, hsd, _⟩ := (mem_sidesFrom fs 0 d).1 hd
    exact ⟨f, List.mem_of_getElem? hf, (d.1, d.2.1), hsd, hk⟩
  refine ⟨src e, ?_⟩
  rintro ⟨f, hff, sd, hsd, rfl⟩
  obtain ⟨i, hi⟩ := List.getElem?_of_mem hff
  obtain ⟨e', he', ht⟩ := inv.all (sd.1, sd.2, 0 + i) ((mem_sidesFrom fs 0 _).2 ⟨i, f, hi, hsd, rfl⟩)
  have he' := h3.mem_iff.2 he'
  obtain ⟨f', hff', sd', hsd', he''⟩ := src e' he'
  obtain ⟨p, q, rfl⟩ := sides_fin (hf f hff) sd hsd
  obtain ⟨p', q', rfl⟩ := sides_fin (hf f' hff') sd' hsd'
  obtain ⟨g, hg⟩ := edgeKey_fin p q
  obtain ⟨g', hg'⟩ := edgeKey_fin p' q'
  simp only [Side.key] at ht
  rw [he'', hg', hg] at ht
  have := eTie_fin _ _ ht
  simp only
  rw [hg, ← this, ← hg', ← he'']
  exact he'

theorem filter_first_last {β : Type} (p : β → Bool) (l : List β) (i j : Nat) (f g : β) (hi : l[i]? = some f) (hj : l[j]? = some g) (hf : p f = true)
    (hg : p g = true) (h : ∀ m x, l[m]? = some x → p x = true → i ≤ m ∧ m ≤ j) :
    (i = j ∧ l.filter p = [f]) ∨ (i ≠ j ∧ ∃ mid, l.filter p = f :: mid ++ [g]) := by
  obtain ⟨li, gi⟩ := List.getElem?_eq_some_iff.1 hi
  obtain ⟨lj, gj⟩ := List.getElem?_eq_some_iff.1 hj
  have none_out : ∀ (a b : Nat), (∀ m, a ≤ m → m < b → m < i ∨ j < m) → ((l.take b).drop a).filter p = [] := by
    intro a b hab
    rw [List.filter_eq_nil_iff]
    intro x hx hpx
    obtain ⟨k, hk⟩ := List.getElem?_of_mem hx
    rw [List.getElem?_drop, List.getElem?_take] at hk
    split_ifs at hk with hlt
    have := h _ _ hk hpx
    have := hab (a + k) (by omega) hlt
    omega
  have split_at : ∀ n (hn : n < l.length), l = l.take n ++ l[n] :: l.drop (n + 1) := by
    intro n hn
    rw [List.cons_getElem_drop_succ, List.take_append_drop]
  have h1 : (l.take i).filter p = [] := by
    have := none_out 0 i (fun m _ hm => Or.inl hm)
    simpa using this
  have e1 : l.filter p = f :: (l.drop (i + 1)).filter p := by
    conv_lhs => rw [split_at i li]
    rw [List.filter_append, h1, gi, List.filter_cons_of_pos hf]; rfl
  have hlast : (l.drop (j + 1)).filter p = [] := by
    have := none_out (j + 1) l.length (fun m hm _ => Or.inr (by omega))
    simpa using this
  by_cases hij : i = j
  · left
    subst hij
    exact ⟨rfl, by rw [e1, hlast]⟩
  · right
    refine ⟨hij, (((l.drop (i + 1)).take (j - (i + 1))).filter p), ?_⟩
    have hlt : i < j := lt_of_le_of_ne (h j g hj hg).1 hij
    have e2 : l.drop (i + 1) = (l.drop (i + 1)).take (j - (i + 1)) ++ g :: l.drop (j + 1) := by
      conv_lhs => rw [← List.take_append_drop (j - (i + 1)) (l.drop (i + 1))]
      congr 1
      rw [List.drop_drop, show i + 1 + (j - (i + 1)) = j by omega, ← gj, List.cons_getElem_drop_succ]
    rw [e1]
    conv_lhs => rw [e2]
    rw [List.filter_append, List.filter_cons_of_pos hg, hlast]
    rfl

open Classical in
/-- the facets bordering an edge -/
noncomputable def bordering (fs : List (Facet (Ext K))) (e : Edge (Ext K)) : List (Facet (Ext K)) := fs.filter fun f => decide (HasSide f e)

/-- an edge is drawn if it borders one facet, or two that are not nearly coplanar -/
def Shows (fs : List (Facet (Ext K))) (e : Edge (Ext K)) : Prop :=
  (bordering fs e).length = 1 ∨ ∃ x y, bordering fs e = [x, y] ∧ FP.lt (x.norm.dot y.norm) (FP.lit (98 / 100)) = true

theorem drawn_iff (fs : List (Facet (Ext K))) (hf : ∀ f ∈ fs, f.CornersFin) (h2 : ∀ e, (bordering fs e).length ≤ 2) (s : STLFile (Ext K))
    (hs : index fs = .ok s) (k : Nat) (e : Edge (Ext K)) (he : s.edges[k]? = some e) : k < s.unseen ↔ Shows fs e := by
  classical
  obtain ⟨i, j, f, g, hi, hj, hfs, hgs, hall, hiff⟩ := C22_drawn_edges fs (fun f h => (hf f h).ok) s hs k e he
  rw [hiff]
  have := filter_first_last (fun f => decide (HasSide f e)) fs i j f g hi hj (by simpa using hfs) (by simpa using hgs)
    (fun m x hx hp => hall m x hx (by simpa using hp))
  have hb : bordering fs e = fs.filter (fun f => decide (HasSide f e)) := by
    unfold bordering
    congr
  rw [← hb] at this
  unfold Shows
  rcases this with ⟨h, hB⟩ | ⟨h, mid, hB⟩
  · simp [h, hB]
  · have hl := h2 e
    rw [hB] at hl
    have : mid = [] := by
      cases mid with
      | nil => rfl
      | cons a l => simp at hl
    subst this
    simp [h, hB]

/-! ## Same shape -/

theorem Facet.Turned.side {f g : Facet (Ext K)} (h : f.Turned g) (e : Edge (Ext K)) : HasSide f e ↔ HasSide g e := by
  obtain ⟨-, -, h⟩ := h
  simp only [Prod.mk.injEq] at h
  unfold HasSide sidesOf
  simp only [List.mem_cons, List.not_mem_nil, or_false]
  rcases h with ⟨h0, h1, h2⟩ | ⟨h0, h1, h2⟩ | ⟨h0, h1, h2⟩ <;> rw [h0, h1, h2] <;> constructor <;> rintro ⟨sd, h, hs⟩ <;> exact ⟨sd, by tauto, hs⟩

theorem Facet.Turned.keys {f g : Facet (Ext K)} (h : f.Turned g) (e : Edge (Ext K)) :
    (∃ sd ∈ sidesOf f, e = edgeKey sd.1 sd.2) ↔ (∃ sd ∈ sidesOf g, e = edgeKey sd.1 sd.2) := by
  obtain ⟨-, -, h⟩ := h
  simp only [Prod.mk.injEq] at h
  unfold sidesOf
  simp only [List.mem_cons, List.not_mem_nil, or_false]
  rcases h with ⟨h0, h1, h2⟩ | ⟨h0, h1, h2⟩ | ⟨h0, h1, h2⟩ <;> rw [h0, h1, h2] <;> constructor <;> rintro ⟨sd, h, hs⟩ <;> exact ⟨sd, by tauto, hs⟩

theorem Facet.Turned.corners {f g : Facet (Ext K)} (h : f.Turned g) : f.corners.Perm g.corners := by
  obtain ⟨-, -, h⟩ := h
  simp only [Prod.mk.injEq] at h
  unfold Facet.corners
  rcases h with ⟨h0, h1, h2⟩ | ⟨h0, h1, h2⟩ | ⟨h0, h1, h2⟩ <;> rw [h0, h1, h2]
  · exact (List.perm_append_comm (l₁ := [f.e0]) (l₂ := [f.e1, f.e2]))
  · exact (List.perm_append_comm (l₁ := [f.e0, f.e1]) (l₂ := [f.e2]))

theorem SameShape.mem {α : Type} {fs gs : List (Facet α)} (h : SameShape fs gs) :
    (∀ f ∈ fs, ∃ g ∈ gs, f.Turned g) ∧ ∀ g ∈ gs, ∃ f ∈ fs, f.Turned g := by
  obtain ⟨mid, hp, hf⟩ := h
  constructor
  · intro f hff
    obtain ⟨i, hi⟩ := List.getElem?_of_mem (hp.mem_iff.1 hff)
    obtain ⟨a, b⟩ := List.getElem?_eq_some_iff.1 hi
    have := (List.forall₂_iff_get.1 hf).2 i a (by rw [← hf.length_eq]; exact a)
    simp only [List.get_eq_getElem, b] at this
    exact ⟨_, List.getElem_mem _, this⟩
  · intro g hg
    obtain ⟨i, hi⟩ := List.getElem?_of_mem hg
    obtain ⟨a, b⟩ := List.getElem?_eq_some_iff.1 hi
    have := (List.forall₂_iff_get.1 hf).2 i (by rw [hf.length_eq]; exact a) a
    simp only [List.get_eq_getElem, b] at this
    exact ⟨_, hp.mem_iff.2 (List.getElem_mem _), this⟩

theorem SameShape.filter {α : Type} {fs gs : List (Facet α)} (h : SameShape fs gs) (p : Facet α → Bool)
    (hp : ∀ f g, f.Turned g → p f = p g) : SameShape (fs.filter p) (gs.filter p) := by
  obtain ⟨mid, h1, h2⟩ := h
  refine ⟨mid.filter p, h1.filter p, ?_⟩
  clear h1
  induction h2 with
  | nil => exact .nil
  | @cons a b l l' hab _ ih =>
    by_cases ha : p a = true
    · rw [List.filter_cons_of_pos ha, List.filter_cons_of_pos (by rw [← hp _ _ hab]; exact ha)]
      exact .cons hab ih
    · rw [List.filter_cons_of_neg ha, List.filter_cons_of_neg (by rw [← hp _ _ hab]; exact ha)]
      exact ih

theorem SameShape.length {α : Type} {fs gs : List (Facet α)} (h : SameShape fs gs) : fs.length = gs.length := by
  obtain ⟨mid, h1, h2⟩ := h
  rw [h1.length_eq, h2.length_eq]

theorem SameShape.bordering {fs gs : List (Facet (Ext K))} (h : SameShape fs gs) (e : Edge (Ext K)) :
    SameShape (bordering fs e) (S2P.bordering gs e) := by
  classical
  exact h.filter _ (fun f g hfg => by simp [hfg.side e])

theorem Ext.mul_comm' (a b : Ext K) : a * b = b * a := by
  show Ext.mul a b = Ext.mul b a
  cases a <;> cases b <;> simp [Ext.mul, mul_comm]

theorem V3.dot_comm' (a b : V3 (Ext K)) : a.dot b = b.dot a := by
  unfold V3.dot
  rw [Ext.mul_comm' a.x, Ext.mul_comm' a.y, Ext.mul_comm' a.z]

theorem SameShape.shows {fs gs : List (Facet (Ext K))} (h : SameShape fs gs) (e : Edge (Ext K)) (hs : Shows fs e) : Shows gs e := by
  have hb := h.bordering e
  rcases hs with h1 | ⟨x, y, hxy, hlt⟩
  · exact Or.inl (by rw [← hb.length, h1])
  · right
    rw [hxy] at hb
    obtain ⟨mid, hp, hf⟩ := hb
    have : mid = [x, y] ∨ mid = [y, x] := by
      exact List.pair_perm.1 hp
    rcases this with rfl | rfl
    · generalize S2P.bordering gs e = B at hf
      cases hf with
      | cons h1 t => cases t with
        | cons h2 t => cases t; exact ⟨_, _, rfl, by rw [h1.1, h2.1]; exact hlt⟩
    · generalize S2P.bordering gs e = B at hf
      cases hf with
      | cons h1 t => cases t with
        | cons h2 t => cases t; exact ⟨_, _, rfl, by rw [h1.1, h2.1, V3.dot_comm']; exact hlt⟩

theorem behind_turned {f g : Facet (Ext K)} (h : f.Turned g) (p : V3 (Ext K)) : behind g p = behind f p := by
  obtain ⟨hn, hr, h⟩ := h
  simp only [Prod.mk.injEq] at h
  unfold behind
  rcases h with ⟨h0, h1, h2⟩ | ⟨h0, h1, h2⟩ | ⟨h0, h1, h2⟩ <;> simp only [h0, h1, h2, hn, hr]
  · simp only [Bool.and_assoc]
    congr 1
    rw [Bool.and_comm, Bool.and_assoc, Bool.and_comm, Bool.and_comm (FP.le _ _ : Bool)]
    simp only [Bool.and_assoc, Bool.and_comm, Bool.and_left_comm]
  · simp only [Bool.and_assoc, Bool.and_comm, Bool.and_left_comm]

theorem turned_tri {f g : Tri K} (h : f.fin.Turned g.fin) :
    (g.a, g.b, g.c) = (f.a, f.b, f.c) ∨ (g.a, g.b, g.c) = (f.b, f.c, f.a) ∨ (g.a, g.b, g.c) = (f.c, f.a, f.b) := by
  obtain ⟨-, -, h⟩ := h
  simpa only [Prod.mk.injEq, V3.fin_injective] using h

theorem meets_turned {f g : Tri K} (h : f.fin.Turned g.fin) (e : Edge K) (t : K) : Meets e g t ↔ Meets e f t := by
  have h' := turned_tri h
  simp only [Prod.mk.injEq] at h'
  unfold Meets
  rw [behind_turned h, behind_turned h]
  refine and_congr_right fun _ => and_congr_right fun _ => or_congr_right (or_congr_right ?_)
  rcases h' with ⟨h0, h1, h2⟩ | ⟨h0, h1, h2⟩ | ⟨h0, h1, h2⟩ <;> rw [h0, h1, h2] <;> constructor <;> rintro ⟨g, h, r⟩ <;> exact ⟨g, by tauto, r⟩

theorem covers_turned {f g : Tri K} (h : f.fin.Turned g.fin) (e : Edge K) (s : K × K) : Covers e g s ↔ Covers e f s := by
  have m := meets_turned h e
  constructor
  · rintro ⟨h1, h2, h3, h4⟩
    exact ⟨(m _).1 h1, (m _).1 h2, h3, fun t ht => h4 t ((m t).2 ht)⟩
  · rintro ⟨h1, h2, h3, h4⟩
    exact ⟨(m _).2 h1, (m _).2 h2, h3, fun t ht => h4 t ((m t).1 ht)⟩

theorem hasSide_turned {f g : Tri K} (h : f.fin.Turned g.fin) (e : Edge K) : g.HasSide e ↔ f.HasSide e := by
  have h' := turned_tri h
  simp only [Prod.mk.injEq] at h'
  unfold Tri.HasSide
  rcases h' with ⟨h0, h1, h2⟩ | ⟨h0, h1, h2⟩ | ⟨h0, h1, h2⟩ <;> rw [h0, h1, h2] <;> tauto

theorem covered_same {ts us : List (Tri K)} (h : SameShape (ts.map Tri.fin) (us.map Tri.fin)) (e : Edge K) (s : K × K) :
    (∃ f ∈ ts, ¬ f.HasSide e ∧ Covers e f s) ↔ (∃ f ∈ us, ¬ f.HasSide e ∧ Covers e f s) := by
  obtain ⟨h1, h2⟩ := h.mem
  constructor
  · rintro ⟨f, hf, hn, hc⟩
    obtain ⟨g', hg', ht⟩ := h1 f.fin (List.mem_map_of_mem hf)
    obtain ⟨g, hg, rfl⟩ := List.mem_map.1 hg'
    exact ⟨g, hg, by rw [hasSide_turned ht]; exact hn, (covers_turned ht e s).2 hc⟩
  · rintro ⟨g, hg, hn, hc⟩
    obtain ⟨f', hf', ht⟩ := h2 g.fin (List.mem_map_of_mem hg)
    obtain ⟨f, hf, rfl⟩ := List.mem_map.1 hf'
    exact ⟨f, hf, by rw [← hasSide_turned ht]; exact hn, (covers_turned ht e s).1 hc⟩

theorem segsOf_same {ts us : List (Tri K)} (h : SameShape (ts.map Tri.fin) (us.map Tri.fin)) (e : Edge K) : SegsOf ts e = SegsOf us e := by
  funext segs
  unfold SegsOf
  simp only [covered_same h]

/-- the drawing as a function of the edges drawn -/
theorem toLines_eps (S : Sorter) (hS : SortOK S) (s : STLFile (Ext K)) (ts : List (Tri K)) (es : List (Edge K))
    (hts : s.facets = ts.map Tri.fin) (hes : s.edges = es.map Edge.fin) (hfr : ∀ f ∈ ts, f.Front) (hw : WellIndexed s) :
    s.toLines S = .ok (((es.take s.unseen).map fun e => segLines e (Classical.epsilon (SegsOf ts e))).flatten) := by
  obtain ⟨L, h1, h2, h3⟩ := toLines_segsOf S hS s ts es hts hes hfr hw
  have hun : s.unseen ≤ es.length := by have := hw.unseenLe; rwa [hes, List.length_map] at this
  rw [h2]
  congr 2
  apply List.ext_getElem
  · simp [h1]; omega
  · intro i a b
    have hi : i < es.length := by simp at a; omega
    have hL : i < L.length := by simp at a; omega
    simp only [List.getElem_zipWith, List.getElem_map, List.getElem_take]
    have := h3 i es[i] L[i] (List.getElem?_eq_getElem hi) (List.getElem?_eq_getElem hL)
    rw [this.unique (Classical.epsilon_spec ⟨_, this⟩) (fun s => Iff.rfl)]

/-- two tables of the same shape: the same lines -/
theorem toLines_sameShape (S : Sorter) (hS : SortOK S) (s u : STLFile (Ext K)) (ts us : List (Tri K))
    (hs : index (ts.map Tri.fin) = .ok s) (hu : index (us.map Tri.fin) = .ok u) (hts : ∀ f ∈ ts, f.Front) (hus : ∀ f ∈ us, f.Front)
    (h2 : ∀ e, (bordering (ts.map Tri.fin) e).length ≤ 2) (h : SameShape (ts.map Tri.fin) (us.map Tri.fin)) :
    ∃ ls ls', s.toLines S = .ok ls ∧ u.toLines S = .ok ls' ∧ ls.Perm ls' := by
  have cfin : ∀ (ts : List (Tri K)), ∀ f ∈ ts.map Tri.fin, Facet.CornersFin f := by
    intro ts f hf
    obtain ⟨t, -, rfl⟩ := List.mem_map.1 hf
    exact ⟨_, _, _, rfl, rfl, rfl⟩
  have table : ∀ (ts : List (Tri K)) (s : STLFile (Ext K)), index (ts.map Tri.fin) = .ok s → s.facets = ts.map Tri.fin ∧ WellIndexed s ∧
      ∃ es : List (Edge K), s.edges = es.map Edge.fin := by
    intro ts s hs
    obtain ⟨s', a1, a2, a3⟩ := C21_index (ts.map Tri.fin) (fun f hf => (cfin ts f hf).ok)
    rw [hs] at a1; injection a1 with a1; subst a1
    refine ⟨a2, a3, ?_⟩
    obtain ⟨es, hes, -⟩ := exists_map_of_forall Edge.fin (fun _ => True) s.edges (by
      intro e he
      obtain ⟨f, hf, sd, hsd, rfl⟩ := (mem_edges _ (cfin ts) s hs e).1 he
      obtain ⟨p, q, rfl⟩ := sides_fin (cfin ts f hf) sd hsd
      obtain ⟨g, hg⟩ := edgeKey_fin p q
      exact ⟨g, hg, trivial⟩)
    exact ⟨es, hes⟩
  obtain ⟨f1, w1, es, hes⟩ := table ts s hs
  obtain ⟨f2, w2, es', hes'⟩ := table us u hu
  refine ⟨_, _, toLines_eps S hS s ts es f1 hes hts w1, toLines_eps S hS u us es' f2 hes' hus w2, ?_⟩
  rw [show (fun e => segLines e (Classical.epsilon (SegsOf us e))) = fun e => segLines e (Classical.epsilon (SegsOf ts e)) from by
    funext e; rw [segsOf_same h]]
  refine List.Perm.flatten (List.Perm.map _ ?_)
  have h2' : ∀ e, (bordering (us.map Tri.fin) e).length ≤ 2 := fun e => by rw [← (h.bordering e).length]; exact h2 e
  have nodup : ∀ (s : STLFile (Ext K)) (es : List (Edge K)), WellIndexed s → s.edges = es.map Edge.fin → es.Nodup := by
    intro s es w hes
    have := w.distinct
    rw [hes, List.pairwise_map] at this
    refine this.imp ?_
    rintro a b hab rfl
    exact hab ((sameEdge_fin a a.1 a.2).2 (Or.inl rfl))
  have mem : ∀ (ts : List (Tri K)) (s : STLFile (Ext K)) (es : List (Edge K)), index (ts.map Tri.fin) = .ok s → s.edges = es.map Edge.fin →
      (∀ e, (bordering (ts.map Tri.fin) e).length ≤ 2) → ∀ e, e ∈ es.take s.unseen ↔
        (∃ f ∈ ts.map Tri.fin, ∃ sd ∈ sidesOf f, e.fin = edgeKey sd.1 sd.2) ∧ Shows (ts.map Tri.fin) e.fin := by
    intro ts s es hs hes h2 e
    have key : ∀ k, es[k]? = some e → (k < s.unseen ↔ Shows (ts.map Tri.fin) e.fin) := by
      intro k hk
      exact drawn_iff (ts.map Tri.fin) (cfin ts) h2 s hs k e.fin (by rw [hes, List.getElem?_map, hk]; rfl)
    rw [← mem_edges _ (cfin ts) s hs, hes]
    constructor
    · intro he
      obtain ⟨k, hk⟩ := List.getElem?_of_mem he
      rw [List.getElem?_take] at hk
      split_ifs at hk with hlt
      exact ⟨List.mem_map_of_mem (List.mem_of_getElem? hk), (key k hk).1 hlt⟩
    · rintro ⟨he, hsh⟩
      obtain ⟨e', he', heq⟩ := List.mem_map.1 he
      have : e' = e := by
        simp only [Prod.mk.injEq, V3.fin_injective] at heq
        exact Prod.ext heq.1 heq.2
      subst this
      obtain ⟨k, hk⟩ := List.getElem?_of_mem he'
      apply List.mem_of_getElem? (i := k)
      rw [List.getElem?_take, if_pos ((key k hk).2 hsh)]
      exact hk
  refine (List.perm_ext_iff_of_nodup ((nodup s es w1 hes).sublist (List.take_sublist _ _)) ((nodup u es' w2 hes').sublist (List.take_sublist _ _))).2 ?_
  intro e
  rw [mem ts s es hs hes h2 e, mem us u es' hu hes' h2' e]
  have keys : (∃ f ∈ ts.map Tri.fin, ∃ sd ∈ sidesOf f, e.fin = edgeKey sd.1 sd.2) ↔ (∃ f ∈ us.map Tri.fin, ∃ sd ∈ sidesOf f, e.fin = edgeKey sd.1 sd.2) := by
    constructor
    · rintro ⟨f, hf, hk⟩
      obtain ⟨g, hg, ht⟩ := h.mem.1 f hf
      exact ⟨g, hg, (ht.keys _).1 hk⟩
    · rintro ⟨g, hg, hk⟩
      obtain ⟨f, hf, ht⟩ := h.mem.2 g hg
      exact ⟨f, hf, (ht.keys _).2 hk⟩
  rw [keys]
  refine and_congr_right fun _ => ⟨h.shows _, fun hs => ?_⟩
  -- back
  have hb := h.bordering e.fin
  rcases hs with h1 | ⟨x, y, hxy, hlt⟩
  · exact Or.inl (by rw [hb.length, h1])
  · right
    have hl := hb.length
    rw [hxy] at hl
    rcases hB : bordering (ts.map Tri.fin) e.fin with _ | ⟨x', _ | ⟨y', _ | ⟨z, r⟩⟩⟩ <;> rw [hB] at hl <;> simp at hl
    refine ⟨x', y', rfl, ?_⟩
    rw [hxy, hB] at hb
    obtain ⟨mid, hp, hf⟩ := hb
    rcases List.pair_perm.1 hp with rfl | rfl
    · cases hf with
      | cons h1 t => cases t with
        | cons h2 t => rw [← h1.1, ← h2.1]; exact hlt
    · cases hf with
      | cons h1 t => cases t with
        | cons h2 t => rw [V3.dot_comm', ← h1.1, ← h2.1]; exact hlt

end
end S2P
