import Verif.Lemmas.TriGeo
import Verif.Props.Index
import Verif.Props.StlFile
import Verif.Props.Views
import Verif.Props.Cull

/-! # C23–C28: crossings and hidden-line removal -/

set_option linter.unusedSectionVars false

namespace S2P

/-! ## C23 -/

section
variable {α : Type} [FP α]

/-- C23: in any arithmetic, for any edges and any `unseen`, the 'Duplicate found' assertion never fires. -/
theorem C23_no_abort (edges : List (Edge α)) (unseen : Nat) : ∃ cs, edgeCrosses edges unseen = .ok cs ∧ cs.length = unseen := by
  obtain ⟨cs, h1, h2, _⟩ := edgeCrosses_ok edges unseen
  exact ⟨cs, h1, h2⟩

/-- C24: in any arithmetic, for any edge, face and crossings, the buffer of five candidate points is not overrun. -/
theorem C24_buffer (cs : List (Nat × V3 α)) (e : Edge α) (f : Facet α) (el : Nat × Nat × Nat) :
    ∃ l, hiddenPoints cs e f el = .ok l ∧ l.length ≤ 5 :=
  ⟨_, hiddenPoints_eq cs e f el, candList_length cs e f el⟩
end

variable {K : Type} [Field K] [LinearOrder K] [IsStrictOrderedRing K] [FloorRing K] [Trans K]

/-- C23: what is recorded for edge `v` under key `u` is exactly: the points of edge `v` over which edge `u`, not parallel to it on the
page, has a point at least as near to the viewer. -/
theorem C23_crossings (es : List (Edge K)) (unseen : Nat) (hun : unseen ≤ es.length) :
    ∃ cs, edgeCrosses (es.map Edge.fin) unseen = .ok cs ∧ cs.length = unseen ∧
      ∀ (v : Nat) (e : Edge K) (m : List (Nat × V3 (Ext K))), es[v]? = some e → cs[v]? = some m → ∀ (u : Nat) (p : V3 (Ext K)),
        ((u, p) ∈ m ↔ ∃ g q, u ≠ v ∧ es[u]? = some g ∧ p = V3.fin q ∧ ¬ PageParallel e g ∧ CrossedAt e g q) := by
  obtain ⟨cs, h1, h2, h3⟩ := edgeCrosses_fin es unseen hun
  exact ⟨cs, h1, h2, fun v e m he hm => (h3 v e m he hm).mem⟩

/-- two edges crossing on the page, the second one nearer: the first is recorded as crossed, the second is not -/
def exCross : List (Edge ℚ) := [(⟨0, 0, 0⟩, ⟨2, 2, 0⟩), (⟨0, 2, 1⟩, ⟨2, 0, 1⟩)]
example : edgeCrosses (exCross.map Edge.fin) 2 = .ok [[(1, V3.fin ⟨1, 1, 0⟩)], []] := by decide +kernel
example : ¬ PageParallel exCross[0] exCross[1] ∧ CrossedAt exCross[0] exCross[1] ⟨1, 1, 0⟩ := by
  refine ⟨?_, 1 / 2, 1 / 2, ?_⟩ <;> simp [exCross, PageParallel, edgeAt, V3.xy, V3.smul, V3.ext_iff] <;> norm_num

/-! ## C24, C25 -/

/-- C24: for every model with finite edges (facets may be anything), hidden-line removal finishes: no assertion fires. -/
theorem C24_toLines (S : Sorter) (hS : SortOK S) (s : STLFile (Ext K)) (es : List (Edge K)) (hes : s.edges = es.map Edge.fin)
    (hun : s.unseen ≤ s.edges.length) : ∃ ls, s.toLines S = .ok ls := by
  obtain ⟨L, _, h, _⟩ := toLines_spec S hS s es hes (by rw [hes, List.length_map] at hun; exact hun)
  exact ⟨_, h⟩

/-- C24 on what the program feeds in: after any view with a finite matrix of a model with finite corners, hidden-line removal
finishes. -/
theorem C24_after_view (S : Sorter) (hS : SortOK S) (s : STLFile (Ext K)) (m : M3 K)
    (hfin : ∀ f ∈ s.facets, ∃ a b c : V3 K, f.e0 = a.fin ∧ f.e1 = b.fin ∧ f.e2 = c.fin) :
    ∃ s' ls, s.rotate m.fin = .ok s' ∧ s'.toLines S = .ok ls ∧ s'.cull.toLines S = .ok ls := by
  have hrot : ∀ f ∈ s.facets, ∃ a b c : V3 K, (rotFacet m.fin f).e0 = a.fin ∧ (rotFacet m.fin f).e1 = b.fin ∧ (rotFacet m.fin f).e2 = c.fin := by
    intro f hf
    obtain ⟨a, b, c, h0, h1, h2⟩ := hfin f hf
    exact ⟨_, _, _, by simp only [rotFacet, h0, V3.fin_mulM]; rfl, by simp only [rotFacet, h1, V3.fin_mulM]; rfl,
      by simp only [rotFacet, h2, V3.fin_mulM]; rfl⟩
  obtain ⟨s', h1, h2, h3⟩ := C21_rotate s m.fin (by
    intro f hf
    obtain ⟨a, b, c, h0, h1, h2⟩ := hrot f hf
    exact ⟨by rw [h0]; exact V3.ok_fin _, by rw [h1]; exact V3.ok_fin _, by rw [h2]; exact V3.ok_fin _⟩)
  have he : ∀ e ∈ s'.edges, ∃ g : Edge K, e = Edge.fin g ∧ True := by
    intro e he
    obtain ⟨f, hf, sd, hsd, hor⟩ := h2.edgeOk e he
    obtain ⟨g, hg, rfl⟩ := List.mem_map.1 (List.mem_filter.1 (h3.subset hf)).1
    obtain ⟨a, b, c, h0, h1, h2⟩ := hrot g hg
    simp only [sidesOf, List.mem_cons, List.not_mem_nil, or_false, h0, h1, h2] at hsd
    rcases hsd with rfl | rfl | rfl <;> rcases hor with rfl | rfl
    · exact ⟨(a, b), rfl, trivial⟩
    · exact ⟨(b, a), rfl, trivial⟩
    · exact ⟨(b, c), rfl, trivial⟩
    · exact ⟨(c, b), rfl, trivial⟩
    · exact ⟨(c, a), rfl, trivial⟩
    · exact ⟨(a, c), rfl, trivial⟩
  obtain ⟨es, hes, _⟩ := exists_map_of_forall Edge.fin (fun _ => True) s'.edges he
  obtain ⟨ls, hls⟩ := C24_toLines S hS s' es hes h2.unseenLe
  have hcull : s'.cull = s' := by
    apply C19_cull_front_only
    intro f hf
    have := (List.mem_filter.1 (h3.subset hf)).2
    simpa using this
  exact ⟨s', ls, h1, hls, by rw [hcull]; exact hls⟩

/-- C25: for an edge with two different ends, hidden parameter intervals within the edge and sorted by start: the lines drawn are the
images of intervals of positive length within the edge, in order and not overlapping; every parameter is in one of them or in a hidden interval;
and none of them overlaps a hidden interval. -/
theorem C25_complement (e : Edge K) (hne : e.1 ≠ e.2) (spans : List (K × K)) (hs : ∀ s ∈ spans, 0 ≤ s.1 ∧ s.1 ≤ s.2 ∧ s.2 ≤ 1)
    (ho : spans.Pairwise (fun a b => a.1 ≤ b.1)) :
    ∃ segs, edgeLines (FP.lit 0) e.fin (spans.map fun s => ((edgeAt e s.1).fin, (edgeAt e s.2).fin)) = .ok (segLines e segs) ∧
      (∀ g ∈ segs, 0 ≤ g.1 ∧ g.1 < g.2 ∧ g.2 ≤ 1) ∧ segs.Pairwise (fun a b => a.2 ≤ b.1) ∧
      (∀ t, 0 ≤ t → t ≤ 1 → (∃ g ∈ segs, g.1 ≤ t ∧ t ≤ g.2) ∨ ∃ s ∈ spans, s.1 ≤ t ∧ t ≤ s.2) ∧
      (∀ g ∈ segs, ∀ s ∈ spans, ∀ t, g.1 < t → t < g.2 → ¬ (s.1 < t ∧ t < s.2)) := by
  obtain ⟨h1, h2, h3, h4⟩ := edgeSegs_spec spans hs ho
  refine ⟨edgeSegs spans, edgeLines_fin e hne spans hs, h1, h2, h3, ?_⟩
  rintro g hg s hs' t t1 t2 ⟨t3, t4⟩
  rcases h4 g hg s hs' with h | h
  · exact absurd (lt_trans t1 t4) (not_lt.2 h)
  · exact absurd (lt_trans t3 t2) (not_lt.2 h)

/-- C25, the switch for showing hidden lines (stl.cc:427-431): every drawable edge with two different ends is drawn whole,
whatever the hidden spans. -/
theorem C25_show_hidden (es : List (Edge K)) (hne : ∀ e ∈ es, e.1 ≠ e.2) (hides : Nat → Option (List (Edge (Ext K)))) :
    generateLines true es.length (FP.lit 0) (es.map Edge.fin) hides = .ok (es.map fun e => ⟨e.1.xy.fin, e.2.xy.fin⟩) := by
  unfold generateLines
  rw [mapM_except_of_forall _ _ (es.map fun e : Edge K => [(⟨e.1.xy.fin, e.2.xy.fin⟩ : Line (Ext K))]) ?h]
  case h =>
    refine List.forall₂_iff_get.2 ⟨by simp, ?_⟩
    intro i h1 h2
    have hi : i < es.length := by simpa using h2
    have := edgeLines_fin es[i] (hne _ (List.getElem_mem hi)) [] (by simp)
    simp only [List.map_nil] at this
    simp only [List.get_eq_getElem, List.getElem_range, List.getElem_map, List.getElem?_map, List.getElem?_eq_getElem hi, Option.map_some,
      if_true]
    rw [this]
    simp [segLines, edgeSegs, segLoop]
  simp only [bind, Except.bind, pure, Except.pure]
  congr 1
  induction es with
  | nil => rfl
  | cons e es ih => simp [ih (fun x hx => hne x (by simp [hx]))]

/-- hypotheses of `C25_complement` with two overlapping hidden intervals, and what is drawn -/
example : let e : Edge ℚ := (⟨0, 0, 0⟩, ⟨8, 0, 5⟩)
    let spans : List (ℚ × ℚ) := [(1 / 4, 1 / 2), (3 / 8, 3 / 4)]
    e.1 ≠ e.2 ∧ (∀ s ∈ spans, 0 ≤ s.1 ∧ s.1 ≤ s.2 ∧ s.2 ≤ 1) ∧ spans.Pairwise (fun a b => a.1 ≤ b.1) ∧
    edgeLines (FP.lit 0) e.fin (spans.map fun s => ((edgeAt e s.1).fin, (edgeAt e s.2).fin)) =
      .ok [⟨V2.fin ⟨0, 0⟩, V2.fin ⟨2, 0⟩⟩, ⟨V2.fin ⟨6, 0⟩, V2.fin ⟨8, 0⟩⟩] := by
  refine ⟨?_, ?_, ?_, ?_⟩
  · simp
  · simp; norm_num
  · simp; norm_num
  · decide +kernel

/-! ## C26, C27, C28 -/

theorem samePt_fin (p q : V3 K) : SamePt p.fin q.fin ↔ p = q := by
  simp only [SamePt, V3.fin_x, V3.fin_y, V3.fin_z, Ext.fin_eq, decide_eq_true_eq, V3.ext_iff]

theorem sameEdge_fin (g : Edge K) (a b : V3 K) : SameEdge g.fin a.fin b.fin ↔ IsSide g a b := by
  obtain ⟨x, y⟩ := g
  simp only [SameEdge, samePt_fin, IsSide, Prod.mk.injEq]

/-- What the page shows of one drawable edge `e`: the parameter intervals `segs`, in view of the front facets `ts`. -/
structure Shown (ts : List (Tri K)) (e : Edge K) (segs : List (K × K)) : Prop where
  /-- C28: only parts of the edge are drawn, -/
  within : ∀ g ∈ segs, 0 ≤ g.1 ∧ g.1 < g.2 ∧ g.2 ≤ 1
  /-- each part once. -/
  apart : segs.Pairwise (fun a b => a.2 ≤ b.1)
  /-- C26: what is not drawn is hidden by a facet not having the edge as a side. -/
  sound : ∀ t, 0 ≤ t → t ≤ 1 → (∃ g ∈ segs, g.1 ≤ t ∧ t ≤ g.2) ∨
    ∃ f ∈ ts, ¬ f.HasSide e ∧ InTri f (edgeAt e t) ∧ OnOrBehind f (edgeAt e t)
  /-- C27: what a facet hides is not drawn, if the edge does not pass in front of the facet, nor touches its inside with an end. -/
  complete : ∀ f ∈ ts, (∀ t, 0 ≤ t → t ≤ 1 → InTri f (edgeAt e t) → OnOrBehind f (edgeAt e t)) →
    (InsideTri f e.1 → StrictlyBehind f e.1) → (InsideTri f e.2 → StrictlyBehind f e.2) →
    ∀ t, 0 ≤ t → t ≤ 1 → InsideTri f (edgeAt e t) → ∀ g ∈ segs, ¬ (g.1 < t ∧ t < g.2)

/-- C26, C27, C28 in one: for a sound edge table of finite front facets, the output is, for each drawable edge in table order, the
segments `Shown` describes; and each drawable edge is a side of a facet. -/
theorem C26_hidden_exact (S : Sorter) (hS : SortOK S) (s : STLFile (Ext K)) (ts : List (Tri K)) (es : List (Edge K))
    (hts : s.facets = ts.map Tri.fin) (hes : s.edges = es.map Edge.fin) (hfr : ∀ f ∈ ts, f.Front) (hw : WellIndexed s) :
    ∃ L : List (List (K × K)), L.length = s.unseen ∧ s.toLines S = .ok ((List.zipWith segLines es L).flatten) ∧
      ∀ (v : Nat) (e : Edge K) (segs : List (K × K)), es[v]? = some e → L[v]? = some segs → Shown ts e segs ∧ ∃ f ∈ ts, f.HasSide e := by
  have hun : s.unseen ≤ es.length := by have := hw.unseenLe; rwa [hes, List.length_map] at this
  obtain ⟨L, h1, h2, h3⟩ := toLines_spec S hS s es hes hun
  refine ⟨L, h1, h2, ?_⟩
  intro v e segs hv hL
  obtain ⟨cs, spans, hd⟩ := h3 v e segs hv hL
  -- records of faces
  have rcd : ∀ p ∈ s.facets.zip s.faceEdge, ∃ f ∈ ts, p.1 = f.fin ∧ SidesAt es f p.2 := by
    intro p hp
    obtain ⟨i, hi⟩ := List.getElem?_of_mem hp
    have hz := List.getElem?_zip_eq_some.1 hi
    obtain ⟨hf, hel⟩ := hz
    obtain ⟨f, hf1, hf2⟩ : ∃ f ∈ ts, f.fin = p.1 := by
      have := List.mem_of_getElem? hf; rw [hts] at this; exact List.mem_map.1 this
    have hk := hw.faceOk i p.1 p.2 hf hel
    rw [← hf2] at hk
    have conv : ∀ (n : Nat) (a b : V3 K), (∃ e', s.edges[n]? = some e' ∧ SameEdge e' a.fin b.fin) → ∃ g, es[n]? = some g ∧ IsSide g a b := by
      rintro n a b ⟨e', h1, h2⟩
      rw [hes, List.getElem?_map] at h1
      cases hg : es[n]? with
      | none => rw [hg] at h1; cases h1
      | some g =>
        rw [hg] at h1
        injection h1 with h1
        rw [← h1] at h2
        exact ⟨g, rfl, (sameEdge_fin g a b).1 h2⟩
    exact ⟨f, hf1, hf2.symm, conv _ _ _ hk.1, conv _ _ _ hk.2.1, conv _ _ _ hk.2.2⟩
  have face : ∀ f ∈ ts, ∃ el, (f.fin, el) ∈ s.facets.zip s.faceEdge := by
    intro f hf
    have hm : f.fin ∈ s.facets := by rw [hts]; exact List.mem_map_of_mem hf
    obtain ⟨i, hi⟩ := List.getElem?_of_mem hm
    have hlt : i < s.faceEdge.length := by rw [hw.faceLen]; exact (List.getElem?_eq_some_iff.1 hi).1
    refine ⟨s.faceEdge[i], List.mem_of_getElem? (i := i) ?_⟩
    simp [List.zip, List.getElem?_zipWith, hi, List.getElem?_eq_getElem hlt]
  -- sides are found under their own index
  have uniq : ∀ (n : Nat) (g : Edge K) (a b : V3 K), es[n]? = some g → IsSide g a b → (e = (a, b) ∨ e = (b, a)) → v = n := by
    intro n g a b hg hs he
    by_contra hne
    have hpw := hw.distinct
    rw [hes, List.pairwise_map, List.pairwise_iff_getElem] at hpw
    obtain ⟨lv, gv⟩ := List.getElem?_eq_some_iff.1 hv
    obtain ⟨ln, gn⟩ := List.getElem?_eq_some_iff.1 hg
    rcases Nat.lt_or_gt_of_ne hne with hlt | hlt
    · apply hpw v n lv ln hlt
      rw [gv, gn, sameEdge_fin]
      rcases hs with rfl | rfl <;> rcases he with rfl | rfl <;> simp [IsSide]
    · apply hpw n v ln lv hlt
      rw [gv, gn, sameEdge_fin]
      rcases hs with rfl | rfl <;> rcases he with rfl | rfl <;> simp [IsSide]
  have sideIdx : ∀ f el, SidesAt es f el → f.HasSide e → v = el.1 ∨ v = el.2.1 ∨ v = el.2.2 := by
    rintro f el ⟨⟨g0, q0, s0⟩, ⟨g1, q1, s1⟩, ⟨g2, q2, s2⟩⟩ hside
    rcases hside with h | h | h | h | h | h
    · exact Or.inl (uniq _ _ _ _ q0 s0 (Or.inl h))
    · exact Or.inr (Or.inl (uniq _ _ _ _ q1 s1 (Or.inl h)))
    · exact Or.inr (Or.inr (uniq _ _ _ _ q2 s2 (Or.inl h)))
    · exact Or.inl (uniq _ _ _ _ q0 s0 (Or.inr h))
    · exact Or.inr (Or.inl (uniq _ _ _ _ q1 s1 (Or.inr h)))
    · exact Or.inr (Or.inr (uniq _ _ _ _ q2 s2 (Or.inr h)))
  -- the edge is a side of a facet
  obtain ⟨f0, hf0, hs0⟩ : ∃ f ∈ ts, f.HasSide e := by
    have hm : Edge.fin e ∈ s.edges := by rw [hes]; exact List.mem_map_of_mem (List.mem_of_getElem? hv)
    obtain ⟨F, hF, sd, hsd, hor⟩ := hw.edgeOk _ hm
    rw [hts] at hF
    obtain ⟨f, hf, rfl⟩ := List.mem_map.1 hF
    refine ⟨f, hf, ?_⟩
    obtain ⟨x, y⟩ := e
    simp only [sidesOf, List.mem_cons, List.not_mem_nil, or_false] at hsd
    unfold Tri.HasSide
    simp only [Prod.mk.injEq]
    rcases hsd with rfl | rfl | rfl <;> simp only [Prod.mk.injEq, V3.fin_injective] at hor <;> tauto
  -- it has two different ends
  have hne : e.1 ≠ e.2 := by
    intro heq
    have hpos := (hfr f0 hf0).area_pos
    obtain ⟨x, y⟩ := e
    simp only at heq; subst heq
    unfold Tri.HasSide at hs0
    simp only [Prod.mk.injEq] at hs0
    rcases hs0 with ⟨h1, h2⟩ | ⟨h1, h2⟩ | ⟨h1, h2⟩ | ⟨h1, h2⟩ | ⟨h1, h2⟩ | ⟨h1, h2⟩ <;>
      (simp only [area, ← h1, ← h2] at hpos; ring_nf at hpos; exact lt_irrefl _ hpos)
  obtain ⟨p1, p2, p3, p4⟩ := edgeSegs_spec spans hd.range hd.sorted
  rw [← hd.nondeg hne] at p1 p2 p3 p4
  refine ⟨⟨p1, p2, ?_, ?_⟩, f0, hf0, hs0⟩
  · intro t t0 t1
    rcases p3 t t0 t1 with h | ⟨sp, hsp, q1, q2⟩
    · exact Or.inl h
    · right
      obtain ⟨p, hp, hnv, hfs⟩ := hd.src sp hsp
      obtain ⟨f, hf, hpf, hsides⟩ := rcd p hp
      rw [hpf] at hfs
      obtain ⟨a1, a2⟩ := cand_region es s.unseen v e cs hd.rcd f (hfr f hf) p.2 hsides _ hfs.lo
      obtain ⟨b1, b2⟩ := cand_region es s.unseen v e cs hd.rcd f (hfr f hf) p.2 hsides _ hfs.hi
      exact ⟨f, hf, fun hs => hnv (sideIdx f p.2 hsides hs), inTri_convex f (hfr f hf) e _ _ t a1 b1 q1 q2,
        onOrBehind_convex f e _ _ t a2 b2 q1 q2⟩
  · intro f hf hbeh he1 he2 t t0 t1 hin g hg hgt
    obtain ⟨el, hel⟩ := face f hf
    obtain ⟨f', hf', hff, hsides⟩ := rcd _ hel
    have hff : f = f' := by
      simp only [Facet.mk.injEq, V3.fin_injective, Ext.fin_inj] at hff
      obtain ⟨n, a, b, c, r⟩ := f
      obtain ⟨n', a', b', c', r'⟩ := f'
      simp only at hff
      obtain ⟨rfl, rfl, rfl, rfl, rfl⟩ := hff
      rfl
    subst hff
    have fr := hfr f hf
    have hg' := p1 g hg
    have t0' : 0 < t := lt_of_le_of_lt hg'.1 hgt.1
    have t1' : t < 1 := lt_of_lt_of_le hgt.2 hg'.2.2
    have hv' : ¬(v = el.1 ∨ v = el.2.1 ∨ v = el.2.2) := by
      intro hv'
      refine side_not_inside f fr e ?_ t hin
      obtain ⟨⟨g0, q0, s0⟩, ⟨g1, q1, s1⟩, ⟨g2, q2, s2⟩⟩ := hsides
      rcases hv' with rfl | rfl | rfl
      · rw [hv] at q0; injection q0 with q0; subst q0; exact Or.inl s0
      · rw [hv] at q1; injection q1 with q1; subst q1; exact Or.inr (Or.inl s1)
      · rw [hv] at q2; injection q2 with q2; subst q2; exact Or.inr (Or.inr s2)
    obtain ⟨l1, l10, l11, c1⟩ := cand_exists es s.unseen v e cs hd.rcd f fr el hsides hv' hbeh 0 t (Or.inl rfl) t0 t1 hin (by simpa using he1)
    obtain ⟨l2, l20, l21, c2⟩ := cand_exists es s.unseen v e cs hd.rcd f fr el hsides hv' hbeh 1 t (Or.inr rfl) t0 t1 hin (by simpa using he2)
    have u1 : 0 + l1 * (t - 0) < t := by
      have := mul_lt_mul_of_pos_right l11 t0'; linarith
    have u2 : t < 1 + l2 * (t - 1) := by
      have := mul_lt_mul_of_pos_right l21 (show 0 < 1 - t by linarith); linarith
    rcases hd.all hne _ hel hv' with ⟨sp, hsp, hfs⟩ | hall
    · have r1 := hfs.all _ c1
      have r2 := hfs.all _ c2
      rcases p4 g hg sp hsp with h | h
      · have := hgt.1; linarith [r2.2]
      · have := hgt.2; linarith [r1.1]
    · have := hall _ _ c1 c2; linarith

/-- C27: if a drawable edge does not pass in front of a front facet and does not touch the facet's inside with an end, no point of the
edge that is, on the page, strictly inside the facet is in the interior of a line drawn for the edge. -/
theorem C27_hidden_removed (S : Sorter) (hS : SortOK S) (s : STLFile (Ext K)) (ts : List (Tri K)) (es : List (Edge K))
    (hts : s.facets = ts.map Tri.fin) (hes : s.edges = es.map Edge.fin) (hfr : ∀ f ∈ ts, f.Front) (hw : WellIndexed s) :
    ∃ L : List (List (K × K)), L.length = s.unseen ∧ s.toLines S = .ok ((List.zipWith segLines es L).flatten) ∧
      ∀ (v : Nat) (e : Edge K) (segs : List (K × K)), es[v]? = some e → L[v]? = some segs → ∀ f ∈ ts,
        (∀ t, 0 ≤ t → t ≤ 1 → InTri f (edgeAt e t) → OnOrBehind f (edgeAt e t)) →
        (InsideTri f e.1 → StrictlyBehind f e.1) → (InsideTri f e.2 → StrictlyBehind f e.2) →
        ∀ t, 0 ≤ t → t ≤ 1 → InsideTri f (edgeAt e t) → ∀ g ∈ segs, ¬ (g.1 < t ∧ t < g.2) := by
  obtain ⟨L, h1, h2, h3⟩ := C26_hidden_exact S hS s ts es hts hes hfr hw
  exact ⟨L, h1, h2, fun v e segs hv hL => (h3 v e segs hv hL).1.complete⟩

/-- C28: every output line is the page projection of a part (of positive length) of a side of a front facet which C22 counts as drawable. -/
theorem C28_only_real_edges (S : Sorter) (hS : SortOK S) (s : STLFile (Ext K)) (ts : List (Tri K)) (es : List (Edge K))
    (hts : s.facets = ts.map Tri.fin) (hes : s.edges = es.map Edge.fin) (hfr : ∀ f ∈ ts, f.Front) (hw : WellIndexed s)
    (ls : List (Line (Ext K))) (hls : s.toLines S = .ok ls) (l : Line (Ext K)) (hl : l ∈ ls) :
    ∃ (v : Nat) (e : Edge K) (t u : K), v < s.unseen ∧ es[v]? = some e ∧ (∃ f ∈ ts, f.HasSide e) ∧ 0 ≤ t ∧ t < u ∧ u ≤ 1 ∧
      l = ⟨(edgeAt e t).xy.fin, (edgeAt e u).xy.fin⟩ := by
  obtain ⟨L, h1, h2, h3⟩ := C26_hidden_exact S hS s ts es hts hes hfr hw
  rw [hls] at h2; injection h2 with h2
  rw [h2] at hl
  obtain ⟨q, hq, hlq⟩ := List.mem_flatten.1 hl
  obtain ⟨v, hv⟩ := List.getElem?_of_mem hq
  rw [List.getElem?_zipWith] at hv
  cases he : es[v]? with
  | none => rw [he] at hv; cases hv
  | some e =>
    cases hL : L[v]? with
    | none => rw [he, hL] at hv; cases hv
    | some segs =>
      rw [he, hL] at hv
      injection hv with hv
      rw [← hv] at hlq
      obtain ⟨g, hg, rfl⟩ := List.mem_map.1 hlq
      obtain ⟨hsh, hside⟩ := h3 v e segs he hL
      obtain ⟨a, b, c⟩ := hsh.within g hg
      exact ⟨v, e, g.1, g.2, by rw [← h1]; exact (List.getElem?_eq_some_iff.1 hL).1, he, hside, a, b, c, rfl⟩

/-! ### From the file to the page -/

/-- rotations keep cross products -/
theorem rotation_cross (m : M3 K) (hm : IsRotation m) (u v : V3 K) : (u.mulM m).cross (v.mulM m) = (u.cross v).mulM m := by
  obtain ⟨ho, hd⟩ := hm
  have rows : ∀ a b c : V3 K, a.dot a = 1 → b.dot b = 1 → c.dot c = 1 → a.dot b = 0 → (a.cross b).dot c = 1 → a.cross b = c := by
    intro a b c ha hb hc hab hdet
    have hz : ((a.cross b) - c).sqNorm = 0 := by
      simp only [V3.sqNorm, V3.dot, V3.cross, V3.sub_x, V3.sub_y, V3.sub_z] at *
      linear_combination (b.x * b.x + b.y * b.y + b.z * b.z) * ha + hb - (a.x * b.x + a.y * b.y + a.z * b.z) * hab + hc - 2 * hdet
    by_contra hne
    have := V3.sqNorm_pos (a.cross b - c) (by
      intro h
      apply hne
      have hx := congrArg V3.x h; have hy := congrArg V3.y h; have hz := congrArg V3.z h
      simp only [V3.sub_x, V3.sub_y, V3.sub_z] at hx hy hz
      ext
      · linarith
      · linarith
      · linarith)
    linarith
  have e0 : V3.mulM ⟨1, 0, 0⟩ m = m.r0 := by ext <;> simp [V3.mulM]
  have e1 : V3.mulM ⟨0, 1, 0⟩ m = m.r1 := by ext <;> simp [V3.mulM]
  have e2 : V3.mulM ⟨0, 0, 1⟩ m = m.r2 := by ext <;> simp [V3.mulM]
  have d00 := ho ⟨1, 0, 0⟩ ⟨1, 0, 0⟩; have d11 := ho ⟨0, 1, 0⟩ ⟨0, 1, 0⟩; have d22 := ho ⟨0, 0, 1⟩ ⟨0, 0, 1⟩
  have d01 := ho ⟨1, 0, 0⟩ ⟨0, 1, 0⟩; have d12 := ho ⟨0, 1, 0⟩ ⟨0, 0, 1⟩; have d20 := ho ⟨0, 0, 1⟩ ⟨1, 0, 0⟩
  rw [e0] at d00; rw [e1] at d11; rw [e2] at d22; rw [e0, e1] at d01; rw [e1, e2] at d12; rw [e2, e0] at d20
  simp only [M3.det] at hd
  have c01 := rows m.r0 m.r1 m.r2 (by rw [d00]; simp [V3.dot]) (by rw [d11]; simp [V3.dot]) (by rw [d22]; simp [V3.dot]) (by rw [d01]; simp [V3.dot]) hd
  have c12 := rows m.r1 m.r2 m.r0 (by rw [d11]; simp [V3.dot]) (by rw [d22]; simp [V3.dot]) (by rw [d00]; simp [V3.dot]) (by rw [d12]; simp [V3.dot])
    (by rw [← hd]; simp only [V3.dot, V3.cross]; ring)
  have c20 := rows m.r2 m.r0 m.r1 (by rw [d22]; simp [V3.dot]) (by rw [d00]; simp [V3.dot]) (by rw [d11]; simp [V3.dot]) (by rw [d20]; simp [V3.dot])
    (by rw [← hd]; simp only [V3.dot, V3.cross]; ring)
  simp only [V3.ext_iff, V3.cross] at c01 c12 c20
  obtain ⟨a1, a2, a3⟩ := c01
  obtain ⟨b1, b2, b3⟩ := c12
  obtain ⟨k1, k2, k3⟩ := c20
  ext
  · simp only [V3.cross, V3.mulM]
    linear_combination (u.x * v.y - u.y * v.x) * a1 + (u.y * v.z - u.z * v.y) * b1 + (u.z * v.x - u.x * v.z) * k1
  · simp only [V3.cross, V3.mulM]
    linear_combination (u.x * v.y - u.y * v.x) * a2 + (u.y * v.z - u.z * v.y) * b2 + (u.z * v.x - u.x * v.z) * k2
  · simp only [V3.cross, V3.mulM]
    linear_combination (u.x * v.y - u.y * v.x) * a3 + (u.y * v.z - u.z * v.y) * b3 + (u.z * v.x - u.x * v.z) * k3

/-- C26–C28 apply to everything the program draws, over the reals: whatever the facets (three finite vertices and a finite declared
normal each, collinear ones included) and whatever the rotation, viewing the model gives finite front facets with a sound edge table. -/
theorem C26_after_view (s : STLFile (Ext ℝ)) (m : M3 ℝ) (hm : IsRotation m)
    (hf : ∀ f ∈ s.facets, ∃ n a b c : V3 ℝ, mkFacet n.fin [a.fin, b.fin, c.fin] = .ok f) :
    ∃ (s' : STLFile (Ext ℝ)) (ts : List (Tri ℝ)) (es : List (Edge ℝ)), s.rotate m.fin = .ok s' ∧ s'.cull = s' ∧
      s'.facets = ts.map Tri.fin ∧ s'.edges = es.map Edge.fin ∧ (∀ f ∈ ts, f.Front) ∧ WellIndexed s' := by
  -- facets before the view
  have h0 : ∀ f ∈ s.facets, ∃ t : Tri ℝ, f = t.fin ∧ (t.n = ⟨0, 0, 0⟩ ∨
      (t.n.dot t.a = t.r ∧ t.n.dot t.b = t.r ∧ t.n.dot t.c = t.r ∧ ∃ k, 0 < k ∧ (t.b - t.a).cross (t.c - t.a) = t.n.smul k)) := by
    intro f hff
    obtain ⟨n, a, b, c, hmk⟩ := hf f hff
    by_cases hdeg : (b - a).cross (c - a) = ⟨0, 0, 0⟩
    · rw [C16_degenerate n a b c hdeg] at hmk
      injection hmk with hmk
      exact ⟨⟨⟨0, 0, 0⟩, a, b, c, 0⟩, hmk.symm, Or.inl rfl⟩
    · obtain ⟨N, e0, e2, r, q1, _, _, _, _, q6, _, q8, q9, q10, _⟩ := C16_facet n a b c hdeg
      rw [q1] at hmk
      injection hmk with hmk
      exact ⟨⟨N, e0, b, e2, r⟩, hmk.symm, Or.inr ⟨q8.symm, q9.symm, q10.symm, q6⟩⟩
  have hsub : ∀ p q : V3 ℝ, (p - q).mulM m = p.mulM m - q.mulM m := by
    intro p q; ext <;> simp [V3.mulM] <;> ring
  have hsm : ∀ (p : V3 ℝ) k, (p.smul k).mulM m = (p.mulM m).smul k := by
    intro p k; ext <;> simp [V3.mulM, V3.smul] <;> ring
  have hrot : ∀ f ∈ s.facets, ∃ t : Tri ℝ, rotFacet m.fin f = t.fin ∧ (0 < t.n.z → t.Front) := by
    intro f hff
    obtain ⟨t, rfl, ht⟩ := h0 f hff
    refine ⟨⟨t.n.mulM m, t.a.mulM m, t.b.mulM m, t.c.mulM m, t.r⟩, ?_, ?_⟩
    · simp only [rotFacet, V3.fin_mulM]
    · intro hpos
      rcases ht with hz | ⟨i1, i2, i3, k, hk, hc⟩
      · simp [hz, V3.mulM] at hpos
      · refine ⟨by rw [← i1]; exact hm.1 _ _, by rw [← i2]; exact hm.1 _ _, by rw [← i3]; exact hm.1 _ _, ⟨k, hk, ?_⟩, hpos⟩
        simp only
        rw [← hsub, ← hsub, rotation_cross m hm, hc, hsm]
  obtain ⟨s', r1, r2, r3⟩ := C21_rotate s m.fin (by
    intro f hff
    obtain ⟨t, ht, _⟩ := hrot f hff
    rw [ht]; exact ⟨V3.ok_fin _, V3.ok_fin _, V3.ok_fin _⟩)
  have hfront : ∀ f ∈ s'.facets, FP.le f.norm.z (FP.lit 0) = false := by
    intro f hff
    have := (List.mem_filter.1 (r3.subset hff)).2
    simpa using this
  have hfs : ∀ f ∈ s'.facets, ∃ t : Tri ℝ, f = t.fin ∧ t.Front := by
    intro f hff
    have hle := hfront f hff
    obtain ⟨g, hg, rfl⟩ := List.mem_map.1 (List.mem_filter.1 (r3.subset hff)).1
    obtain ⟨t, ht, hfr⟩ := hrot g hg
    refine ⟨t, ht, hfr ?_⟩
    rw [ht] at hle
    simpa using hle
  obtain ⟨ts, hts, htsF⟩ := exists_map_of_forall Tri.fin Tri.Front s'.facets hfs
  have hes : ∀ e ∈ s'.edges, ∃ g : Edge ℝ, e = Edge.fin g ∧ True := by
    intro e he
    obtain ⟨f, hff, sd, hsd, hor⟩ := r2.edgeOk e he
    obtain ⟨t, rfl, _⟩ := hfs f hff
    simp only [sidesOf, List.mem_cons, List.not_mem_nil, or_false] at hsd
    rcases hsd with rfl | rfl | rfl <;> rcases hor with rfl | rfl
    · exact ⟨(t.a, t.b), rfl, trivial⟩
    · exact ⟨(t.b, t.a), rfl, trivial⟩
    · exact ⟨(t.b, t.c), rfl, trivial⟩
    · exact ⟨(t.c, t.b), rfl, trivial⟩
    · exact ⟨(t.c, t.a), rfl, trivial⟩
    · exact ⟨(t.a, t.c), rfl, trivial⟩
  obtain ⟨es, hes, _⟩ := exists_map_of_forall Edge.fin (fun _ => True) s'.edges hes
  exact ⟨s', ts, es, r1, C19_cull_front_only _ hfront, hts, hes, htsF, r2⟩

/-! ### Concrete cases -/

/-- a large front facet, and a smaller one behind it whose corner (1,1,-1) is hidden and whose corners (9,1,-1), (1,9,-1) are not -/
def exTs : List (Tri ℚ) :=
  [⟨⟨0, 0, 1⟩, ⟨0, 0, 0⟩, ⟨4, 0, 0⟩, ⟨0, 4, 0⟩, 0⟩, ⟨⟨0, 0, 1⟩, ⟨1, 1, -1⟩, ⟨9, 1, -1⟩, ⟨1, 9, -1⟩, -1⟩]

example : ∀ f ∈ exTs, f.Front := by
  simp only [exTs, List.mem_cons, List.not_mem_nil, or_false]
  rintro f (rfl | rfl)
  · exact ⟨by simp [V3.dot], by simp [V3.dot], by simp [V3.dot], ⟨16, by norm_num, by ext <;> simp [V3.cross, V3.smul]; norm_num⟩, by norm_num⟩
  · exact ⟨by simp [V3.dot], by simp [V3.dot], by simp [V3.dot], ⟨64, by norm_num, by ext <;> simp [V3.cross, V3.smul]; norm_num⟩, by norm_num⟩

/-- its edge table -/
def exS : STLFile (Ext ℚ) := ((index (exTs.map Tri.fin)).toOption).getD .empty
example : index (exTs.map Tri.fin) = .ok exS := by decide +kernel
example : exS.unseen = 6 ∧ exS.edges.length = 6 := by decide +kernel

/-- the two sides of the rear facet at its hidden corner are cut where they leave the front facet (x = 3, y = 3); the rest is drawn whole -/
example : exS.toLines insSorter = .ok
    [⟨V2.fin ⟨0, 0⟩, V2.fin ⟨4, 0⟩⟩, ⟨V2.fin ⟨0, 4⟩, V2.fin ⟨4, 0⟩⟩, ⟨V2.fin ⟨0, 0⟩, V2.fin ⟨0, 4⟩⟩,
     ⟨V2.fin ⟨3, 1⟩, V2.fin ⟨9, 1⟩⟩, ⟨V2.fin ⟨1, 9⟩, V2.fin ⟨9, 1⟩⟩, ⟨V2.fin ⟨1, 3⟩, V2.fin ⟨1, 9⟩⟩] := by decide +kernel

/-- Why C27 excludes ends touching the facet: here the edge from (1,1,0), on the front facet, to (9,1,-8), behind it, does not pass in
front of the facet, but is drawn from its end. -/
def exTouch : List (Tri ℚ) :=
  [⟨⟨0, 0, 1⟩, ⟨0, 0, 0⟩, ⟨4, 0, 0⟩, ⟨0, 4, 0⟩, 0⟩, ⟨⟨1, 0, 1⟩, ⟨1, 1, 0⟩, ⟨9, 1, -8⟩, ⟨1, 9, 0⟩, 1⟩]
def exTouchS : STLFile (Ext ℚ) := ((index (exTouch.map Tri.fin)).toOption).getD .empty
theorem C27_touching_end_shown : index (exTouch.map Tri.fin) = .ok exTouchS ∧
    ∃ ls, exTouchS.toLines insSorter = .ok ls ∧ (⟨V2.fin ⟨1, 1⟩, V2.fin ⟨9, 1⟩⟩ : Line (Ext ℚ)) ∈ ls := by
  refine ⟨by decide +kernel, ((exTouchS.toLines insSorter).toOption).getD [], by decide +kernel, by decide +kernel⟩

end S2P
