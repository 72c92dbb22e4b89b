import Verif.Lemmas.Junk
import Verif.Lemmas.ToLines

set_option linter.unusedSectionVars false
set_option linter.unusedVariables false
set_option linter.unusedSimpArgs false

/-! # The result does not depend on how the sort orders ties -/

namespace S2P

section
variable {K : Type} [Field K] [LinearOrder K] [IsStrictOrderedRing K] [FloorRing K] [Trans K]

/-- two spans with the same start may be swapped -/
theorem segLoop_swap (a b : K × K) (ha : a.1 ≤ a.2) (hb : b.1 ≤ b.2) (hab : a.1 = b.1) (r : List (K × K)) (f : K) :
    segLoop (a :: b :: r) f = segLoop (b :: a :: r) f := by
  have h1 : ¬ max f a.2 < b.1 := not_lt.2 (le_trans (hab ▸ ha) (le_max_right _ _))
  have h2 : ¬ max f b.2 < b.1 := not_lt.2 (le_trans hb (le_max_right _ _))
  have h3 : max (max f a.2) b.2 = max (max f b.2) a.2 := by rw [max_assoc, max_assoc, max_comm a.2]
  have h4 : f < a.1 ↔ f < b.1 := by rw [hab]
  simp only [segLoop, if_neg h1, if_neg h2, h3, h4, hab]

/-- a span may be moved to the front of those with the same start -/
theorem segLoop_front (x : K × K) (hx : x.1 ≤ x.2) (q : List (K × K)) : ∀ (p : List (K × K)) (f : K), (∀ s ∈ p, s.1 ≤ s.2 ∧ s.1 = x.1) →
    segLoop (p ++ x :: q) f = segLoop (x :: (p ++ q)) f
  | [], f, _ => rfl
  | s :: p, f, h => by
    rw [List.cons_append, List.cons_append, segLoop_swap x s hx (h s (by simp)).1 (h s (by simp)).2.symm]
    have := segLoop_front x hx q p (max f s.2) (fun y hy => h y (by simp [hy]))
    simp only [segLoop, this]

/-- the loop over the spans sees only which spans there are -/
theorem segLoop_perm : ∀ (l l' : List (K × K)) (f : K), l.Perm l' → (∀ s ∈ l, s.1 ≤ s.2) → l.Pairwise (fun a b => a.1 ≤ b.1) →
    l'.Pairwise (fun a b => a.1 ≤ b.1) → segLoop l f = segLoop l' f
  | [], l', f, h, _, _, _ => by rw [List.nil_perm.1 h]
  | x :: t, l', f, h, hw, hs, hs' => by
    obtain ⟨p, q, rfl⟩ := List.append_of_mem (h.mem_iff.1 (List.mem_cons_self))
    have hpq : t.Perm (p ++ q) := by
      have := h.trans List.perm_middle
      exact (List.perm_cons x).1 this
    have hp : ∀ s ∈ p, s.1 ≤ s.2 ∧ s.1 = x.1 := by
      intro s hsp
      have h1 : s ∈ x :: t := h.mem_iff.2 (by simp [hsp])
      refine ⟨hw s h1, le_antisymm ?_ ?_⟩
      · exact (List.pairwise_append.1 hs').2.2 s hsp x (by simp)
      · rcases List.mem_cons.1 h1 with rfl | h1
        · exact le_refl _
        · exact (List.pairwise_cons.1 hs).1 s h1
    rw [segLoop_front x (hw x (by simp)) q p f hp]
    have := segLoop_perm t (p ++ q) (max f x.2) hpq (fun s h => hw s (by simp [h])) (List.pairwise_cons.1 hs).2
      (hs'.sublist (by simp))
    simp only [segLoop, this]

theorem FaceSpan.unique {cs : List (Nat × V3 (Ext K))} {e : Edge K} {f : Facet (Ext K)} {el : Nat × Nat × Nat} {s t : K × K}
    (h : FaceSpan cs e f el s) (h' : FaceSpan cs e f el t) : s = t :=
  Prod.ext (le_antisymm (h.all _ h'.lo).1 (h'.all _ h.lo).1) (le_antisymm (h'.all _ h.hi).2 (h.all _ h'.hi).2)

/-- what one face hides of an edge is the same for all sorters -/
theorem faceHides_sorter (S S' : Sorter) (hS : SortOK S) (hS' : SortOK S') (cs : List (Nat × V3 (Ext K)))
    (hk : cs.Pairwise (fun a b => a.1 ≠ b.1)) (v : Nat) (e : Edge K) (ho : OnEdge cs e) (f : Facet (Ext K)) (el : Nat × Nat × Nat) :
    faceHides S cs v e.fin f el = faceHides S' cs v e.fin f el := by
  by_cases hne : e.1 = e.2
  · rw [faceHides_degenerate S hS cs hk v e hne ho, faceHides_degenerate S' hS' cs hk v e hne ho]
  · rcases faceHides_spec S hS cs hk v e hne ho f el with ⟨h, g⟩ | ⟨h, s, hs, g⟩ | ⟨h, hc, g⟩ <;>
      rcases faceHides_spec S' hS' cs hk v e hne ho f el with ⟨h', g'⟩ | ⟨h', s', hs', g'⟩ | ⟨h', hc', g'⟩ <;> rw [g, g']
    · exact absurd h h'
    · exact absurd h' h
    · rw [hs.unique hs']
    · exact absurd (hc' _ _ hs.lo hs.hi) hs.lt.ne
    · exact absurd (hc _ _ hs'.lo hs'.hi) hs'.lt.ne

/-- the lines drawn for one edge are the same for all sorters -/
theorem edgeDrawn_sorter (S S' : Sorter) (hS : SortOK S) (hS' : SortOK S') (cs : List (Nat × V3 (Ext K)))
    (hk : cs.Pairwise (fun a b => a.1 ≠ b.1)) (v : Nat) (e : Edge K) (ho : OnEdge cs e) (fs : List (Facet (Ext K) × (Nat × Nat × Nat))) :
    ∃ h h' ls, edgeHides S fs cs v e.fin = .ok h ∧ edgeHides S' fs cs v e.fin = .ok h' ∧
      edgeLines (FP.lit 0) e.fin h = .ok ls ∧ edgeLines (FP.lit 0) e.fin h' = .ok ls := by
  by_cases hne : e.1 = e.2
  · exact ⟨[], [], [], edgeHides_degenerate S hS cs hk v e hne ho fs, edgeHides_degenerate S' hS' cs hk v e hne ho fs,
      edgeLines_degenerate e hne, edgeLines_degenerate e hne⟩
  · obtain ⟨sp, g1, g2, g3, -⟩ := edgeHides_spec S hS cs hk v e hne ho fs
    obtain ⟨sp', g1', g2', g3', -⟩ := edgeHides_spec S' hS' cs hk v e hne ho fs
    have hr : ∀ s ∈ sp, 0 ≤ s.1 ∧ s.1 ≤ s.2 ∧ s.2 ≤ 1 := fun s hs => by
      obtain ⟨p, _, _, hf⟩ := g3 s hs
      exact ⟨hf.lo.1, hf.lt.le, hf.hi.2.1⟩
    have hr' : ∀ s ∈ sp', 0 ≤ s.1 ∧ s.1 ≤ s.2 ∧ s.2 ≤ 1 := fun s hs => by
      obtain ⟨p, _, _, hf⟩ := g3' s hs
      exact ⟨hf.lo.1, hf.lt.le, hf.hi.2.1⟩
    refine ⟨_, _, segLines e (edgeSegs sp), g1, g1', edgeLines_fin e hne sp hr, ?_⟩
    rw [edgeLines_fin e hne sp' hr']
    have hp : sp.Perm sp' := by
      have hinj : Function.Injective (spanPts e) := by
        intro a b hab
        simp only [spanPts, Prod.mk.injEq] at hab
        exact Prod.ext (edgeAt_inj e hne _ _ ((V3.fin_injective _ _).1 hab.1)) (edgeAt_inj e hne _ _ ((V3.fin_injective _ _).1 hab.2))
      have hm : (sp.map (spanPts e)).Perm (sp'.map (spanPts e)) := by
        unfold edgeHides at g1 g1'
        rw [show (fun p : Facet (Ext K) × (Nat × Nat × Nat) => faceHides S cs v e.fin p.1 p.2) =
          (fun p => faceHides S' cs v e.fin p.1 p.2) from funext fun p => faceHides_sorter S S' hS hS' cs hk v e ho p.1 p.2] at g1
        cases hh : fs.mapM (fun p => faceHides S' cs v e.fin p.1 p.2) with
        | error a => rw [hh] at g1; simp [bind, Except.bind] at g1
        | ok hs =>
          rw [hh] at g1 g1'
          simp only [bind, Except.bind, pure, Except.pure, Except.ok.injEq] at g1 g1'
          rw [← g1, ← g1']
          exact (hS.perm _ _).trans (hS'.perm _ _).symm
      exact (List.map_perm_map_iff hinj).1 hm
    have : edgeSegs sp' = edgeSegs sp := by
      unfold edgeSegs
      rw [segLoop_perm sp sp' 0 hp (fun s hs => (hr s hs).2.1) g2 g2']
    rw [this]

/-- the drawing of a table of edges is the same for all sorters -/
theorem toLines_sorter (S S' : Sorter) (hS : SortOK S) (hS' : SortOK S') (s : STLFile (Ext K)) (es : List (Edge K))
    (hes : s.edges = es.map Edge.fin) (hun : s.unseen ≤ es.length) : s.toLines S = s.toLines S' := by
  obtain ⟨cross, hc1, hc2, hc3⟩ := edgeCrosses_fin es s.unseen hun
  have per : ∀ v, v < s.unseen → ∃ (e : Edge K) (cs : List (Nat × V3 (Ext K))) (h h' : List (Edge (Ext K))) (ls : List (Line (Ext K))),
      es[v]? = some e ∧ cross[v]? = some cs ∧ edgeHides S (s.facets.zip s.faceEdge) cs v e.fin = .ok h ∧
      edgeHides S' (s.facets.zip s.faceEdge) cs v e.fin = .ok h' ∧
      edgeLines (FP.lit 0) e.fin h = .ok ls ∧ edgeLines (FP.lit 0) e.fin h' = .ok ls := by
    intro v hv
    have he : es[v]? = some es[v] := List.getElem?_eq_getElem (by omega)
    have hm : cross[v]? = some cross[v] := List.getElem?_eq_getElem (by omega)
    have hr := hc3 v _ _ he hm
    obtain ⟨h, h', ls, g⟩ := edgeDrawn_sorter S S' hS hS' cross[v] hr.keys v es[v] hr.onEdge (s.facets.zip s.faceEdge)
    exact ⟨_, _, h, h', ls, he, hm, g⟩
  haveI : Inhabited (Edge K) := ⟨(⟨0, 0, 0⟩, ⟨0, 0, 0⟩)⟩
  choose! fe fc fh fh' fl hall using per
  have key : ∀ (T : Sorter) (fh : Nat → List (Edge (Ext K))), (∀ v, v < s.unseen → edgeHides T (s.facets.zip s.faceEdge) (fc v) v (fe v).fin = .ok (fh v) ∧
      edgeLines (FP.lit 0) (fe v).fin (fh v) = .ok (fl v)) → s.toLines T = .ok (((List.range s.unseen).map fl).flatten) := by
    intro T fh hT
    unfold STLFile.toLines
    rw [hes, hc1]
    dsimp only [bind, Except.bind]
    rw [mapM_except_of_forall _ _ ((List.range s.unseen).map fh) ?h1]
    case h1 =>
      rw [List.forall₂_map_right_iff]
      refine List.forall₂_same.2 fun v hv => ?_
      have hv' := List.mem_range.1 hv
      simp only [List.getElem?_map, (hall v hv').1, (hall v hv').2.1, Option.map_some]
      exact (hT v hv').1
    dsimp only
    unfold generateLines
    rw [mapM_except_of_forall _ _ ((List.range s.unseen).map fl) ?h2]
    case h2 =>
      rw [List.forall₂_map_right_iff]
      refine List.forall₂_same.2 fun v hv => ?_
      have hv' := List.mem_range.1 hv
      simp only [List.getElem?_map, (hall v hv').1, Option.map_some, List.getElem?_range hv', Option.getD_some, Bool.false_eq_true, if_false]
      exact (hT v hv').2
    rfl
  rw [key S fh fun v hv => ⟨(hall v hv).2.2.1, (hall v hv).2.2.2.2.1⟩, key S' fh' fun v hv => ⟨(hall v hv).2.2.2.1, (hall v hv).2.2.2.2.2⟩]

end

/-! ## The rest of the program -/

/-- the same program with another sort -/
def Env.sortedBy {α : Type} (E : Env α) (S : Sorter) : Env α := { E with sorter := S }

section
variable (E : Env (Ext ℝ)) (S : Sorter)

theorem visitDimN_sortedBy : visitDimN (E.sortedBy S) = visitDimN E := by
  funext v d
  unfold visitDimN
  rfl

theorem visitDims_sortedBy : ∀ (ds : List (DimN (Ext ℝ))) (v : Vis (Ext ℝ)), visitDims (E.sortedBy S) ds v = visitDims E ds v
  | [], v => rfl
  | d :: ds, v => by
    unfold visitDims
    simp only [visitDimN_sortedBy, visitDims_sortedBy ds]

variable (hS : SortOK E.sorter) (hS' : SortOK S)
include hS hS'

theorem visitDraw_sortedBy (stl : Models (Ext ℝ)) (hM : stl.Made) (v : Vis (Ext ℝ)) (name : Str) (ms : List (Meta (Ext ℝ)))
    (dims : List (DimN (Ext ℝ))) (line : Nat) (hf : (Drawable.draw name ms dims line).IsFin) :
    visitDraw (E.sortedBy S) stl v name ms dims line = visitDraw E stl v name ms dims line := by
  unfold visitDraw
  dsimp only
  split
  · rfl
  obtain ⟨p1, q1⟩ := rep_take (rep_flatten c!"draw" ms) c!"scale"
  obtain ⟨p2, q2⟩ := rep_take q1 c!"view"
  rw [if_neg (by decide)] at p2
  split
  · rfl
  split
  · rfl
  rename_i e he
  split
  · rfl
  rename_i rot hrot
  rw [p2, drawView_look] at hrot
  obtain ⟨r, rfl, hr⟩ := viewOf_rotation _ (look_fin hf.1 _) _ hrot
  simp only [bind, Except.bind]
  split
  · rfl
  split
  · rfl
  rename_i file hfile
  cases ht : file.rotate r.fin with
  | error a => rfl
  | ok proj =>
    dsimp only
    obtain ⟨file', hf', hmade⟩ := hM e (List.mem_of_find?_eq_some he)
    rw [hfile] at hf'; injection hf' with hf'; subst hf'
    obtain ⟨s', ts, es, g1, g2, g3, g4, g5, g6⟩ := C26_after_view file r hr (fun f hf => hmade f hf)
    rw [ht] at g1; injection g1 with g1; subst g1
    rw [show (E.sortedBy S).sorter = S from rfl, g2, toLines_sorter S E.sorter hS' hS proj es g4 (by simpa [g4] using g6.unseenLe)]
    simp only [visitDims_sortedBy]

theorem visitDrawables_sortedBy (stl : Models (Ext ℝ)) (hM : stl.Made) : ∀ (ds : List (Drawable (Ext ℝ))) (v : Vis (Ext ℝ)), (∀ d ∈ ds, d.IsFin) →
    visitDrawables (E.sortedBy S) stl ds v = visitDrawables E stl ds v
  | [], v, _ => rfl
  | d :: ds, v, hf => by
    unfold visitDrawables
    have : visitDrawable (E.sortedBy S) stl v d = visitDrawable E stl v d := by
      unfold visitDrawable
      cases d with
      | draw n ms dims l => simp only [visitDraw_sortedBy E S hS hS' stl hM v n ms dims l (hf _ (by simp))]
      | text s ms l => rfl
    rw [this]
    simp only [bind, Except.bind]
    cases h : visitDrawable E stl v d with
    | error a => rfl
    | ok x =>
      dsimp only
      rw [visitDrawables_sortedBy stl hM ds x.2.2 (fun y hy => hf y (by simp [hy]))]

theorem genPages_sortedBy (stl : Models (Ext ℝ)) (hM : stl.Made) : ∀ (pgs : List (PageN (Ext ℝ))) (n : Nat) (v : Vis (Ext ℝ)),
    (∀ p ∈ pgs, ∀ d ∈ p.draws, d.IsFin) → genPages (E.sortedBy S) stl pgs n v = genPages E stl pgs n v
  | [], n, v, _ => rfl
  | p :: pgs, n, v, h => by
    unfold genPages
    have : ∀ v, genPage (E.sortedBy S) stl v (n + 1) p = genPage E stl v (n + 1) p := by
      intro v
      unfold genPage
      dsimp only
      rw [visitDrawables_sortedBy E S hS hS' stl hM p.draws _ (fun d hd => h p (by simp) d hd)]
    rw [this]
    simp only [bind, Except.bind]
    cases hx : genPage E stl v (n + 1) p with
    | error a => rfl
    | ok x =>
      dsimp only
      rw [genPages_sortedBy stl hM pgs (n + 1) x.2.2 (fun y hy => h y (by simp [hy]))]

theorem generatePages_sortedBy (stl : Models (Ext ℝ)) (hM : stl.Made) (doc : Doc (Ext ℝ)) (hf : doc.IsFin)
    (pages : List (OutPage (Ext ℝ))) : generatePages (E.sortedBy S) stl doc pages = generatePages E stl doc pages := by
  unfold generatePages
  rw [show initVis (E.sortedBy S) = initVis E from rfl, genPages_sortedBy E S hS hS' stl hM doc.pages _ _ hf]

end
end S2P
