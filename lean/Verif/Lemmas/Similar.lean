import Verif.Lemmas.FacetView
import Verif.Spec.Resized

set_option linter.unusedSectionVars false
set_option linter.unusedVariables false
set_option linter.unusedSimpArgs false

/-! # The tables of a model whose vertices are moved, keeping their order -/

namespace S2P

section
variable {α : Type} [FP α] (φ : V3 α → V3 α)

def mapE (e : Edge α) : Edge α := (φ e.1, φ e.2)

variable (hφ : ∀ a b, order (φ a) (φ b) = order a b) (F : Facet α → Facet α)
  (hF : ∀ f, (F f).norm = f.norm ∧ (F f).e0 = φ f.e0 ∧ (F f).e1 = φ f.e1 ∧ (F f).e2 = φ f.e2)

include hφ in
theorem edgeKey_map (a b : V3 α) : edgeKey (φ a) (φ b) = mapE φ (edgeKey a b) := by
  unfold edgeKey
  rw [hφ]
  split_ifs <;> rfl

include hφ in
theorem edgeOrder_map (a b : Edge α) : edgeOrder (mapE φ a) (mapE φ b) = edgeOrder a b := by
  simp only [edgeOrder, mapE, hφ]

include hφ in
theorem mapFind_map (k : Edge α) (m : List (Edge α × Nat)) :
    mapFind edgeOrder (mapE φ k) (m.map fun x => (mapE φ x.1, x.2)) = mapFind edgeOrder k m := by
  unfold mapFind
  induction m with
  | nil => rfl
  | cons x m ih =>
    simp only [List.map_cons, List.find?_cons, edgeOrder_map φ hφ]
    split
    · rfl
    · exact ih

def mapIdx (s : IdxState α) : IdxState α := ⟨s.edges.map (mapE φ), s.edgeFace, s.dd.map fun x => (mapE φ x.1, x.2)⟩

include hφ in
theorem addEdge_map (s : IdxState α) (a b : V3 α) (f : Nat) : addEdge (mapIdx φ s) (φ a) (φ b) f = mapIdx φ (addEdge s a b f) := by
  unfold addEdge
  simp only [edgeKey_map φ hφ, mapIdx, mapFind_map φ hφ]
  cases mapFind edgeOrder (edgeKey a b) s.dd with
  | none => simp [mapIdx]
  | some i => rfl

include hφ hF in
theorem addFacet_map (s : IdxState α) (f : Facet α) (i : Nat) : addFacet (mapIdx φ s) (F f) i = mapIdx φ (addFacet s f i) := by
  obtain ⟨-, h0, h1, h2⟩ := hF f
  unfold addFacet
  rw [h0, h1, h2, addEdge_map φ hφ, addEdge_map φ hφ, addEdge_map φ hφ]

include hφ hF in
theorem addFacets_map (fs : List (Facet α)) : addFacets (fs.map F) = mapIdx φ (addFacets fs) := by
  unfold addFacets
  have key : ∀ (l : List (Facet α × Nat)) (s : IdxState α),
      (l.map fun p => (F p.1, p.2)).foldl (fun s p => addFacet s p.1 p.2) (mapIdx φ s) = mapIdx φ (l.foldl (fun s p => addFacet s p.1 p.2) s) := by
    intro l
    induction l with
    | nil => intro s; rfl
    | cons x l ih =>
      intro s
      simp only [List.map_cons, List.foldl_cons, addFacet_map φ hφ F hF]
      exact ih _
  have := key fs.zipIdx ⟨[], [], []⟩
  rw [show mapIdx φ (⟨[], [], []⟩ : IdxState α) = ⟨[], [], []⟩ from rfl] at this
  rw [← this, List.zipIdx_map]
  rfl

theorem swapAt_map {β γ : Type} (g : β → γ) (l : List β) (i j : Nat) : swapAt (l.map g) i j = (swapAt l i j).map g := by
  unfold swapAt
  simp only [List.getElem?_map]
  cases l[i]? <;> cases l[j]? <;> simp [List.map_set]

include hF in
theorem smooth_map (fs : List (Facet α)) (p : Nat × Nat) : smooth (fs.map F) p = smooth fs p := by
  unfold smooth
  simp only [List.getElem?_map]
  split
  · rfl
  · cases fs[p.1]? <;> cases fs[p.2]? <;> simp [(hF _).1]

include hF in
theorem partLoop_map (fs : List (Facet α)) : ∀ (n : Nat) (es : List (Edge α)) (ef : List (Nat × Nat)) (i u : Nat), u - i = n →
    partLoop (fs.map F) (es.map (mapE φ)) ef i u = ((partLoop fs es ef i u).1.map (mapE φ), (partLoop fs es ef i u).2)
  | 0, es, ef, i, u, h => by
    rw [partLoop.eq_1 (fs.map F) (es.map (mapE φ)) ef i u, partLoop.eq_1 fs es ef i u, if_neg (by omega), if_neg (by omega)]
  | n + 1, es, ef, i, u, h => by
    rw [partLoop.eq_1 (fs.map F) (es.map (mapE φ)) ef i u, partLoop.eq_1 fs es ef i u, if_pos (by omega), if_pos (by omega)]
    cases ef[i]? with
    | none => rfl
    | some p =>
      simp only [smooth_map φ F hF]
      split_ifs
      · rw [swapAt_map]; exact partLoop_map fs n _ _ _ _ (by omega)
      · exact partLoop_map fs n _ _ _ _ (by omega)

include hφ in
theorem mapAssign_map (k : Edge α) (v : Nat) (m : List (Edge α × Nat)) :
    mapAssign edgeOrder (mapE φ k) v (m.map fun x => (mapE φ x.1, x.2)) = (mapAssign edgeOrder k v m).map fun x => (mapE φ x.1, x.2) := by
  unfold mapAssign
  rw [mapFind_map φ hφ]
  split_ifs
  · simp only [List.map_map]
    apply List.map_congr_left
    intro x _
    simp only [Function.comp, edgeOrder_map φ hφ]
    split_ifs <;> rfl
  · simp

include hφ in
theorem rebuildDD_map (es : List (Edge α)) : rebuildDD (es.map (mapE φ)) = (rebuildDD es).map fun x => (mapE φ x.1, x.2) := by
  unfold rebuildDD
  have key : ∀ (l : List (Edge α × Nat)) (m : List (Edge α × Nat)),
      (l.map fun p => (mapE φ p.1, p.2)).foldl (fun m p => mapAssign edgeOrder p.1 p.2 m) (m.map fun x => (mapE φ x.1, x.2)) =
        (l.foldl (fun m p => mapAssign edgeOrder p.1 p.2 m) m).map fun x => (mapE φ x.1, x.2) := by
    intro l
    induction l with
    | nil => intro m; rfl
    | cons x l ih =>
      intro m
      simp only [List.map_cons, List.foldl_cons, mapAssign_map φ hφ]
      exact ih _
  have := key es.zipIdx []
  rw [List.map_nil] at this
  rw [← this, List.zipIdx_map]
  rfl

include hφ in
theorem findEdge_map (dd : List (Edge α × Nat)) (a b : V3 α) : findEdge (dd.map fun x => (mapE φ x.1, x.2)) (φ a) (φ b) = findEdge dd a b := by
  unfold findEdge
  rw [edgeKey_map φ hφ, mapFind_map φ hφ]

include hφ hF in
theorem faceEdges_map (dd : List (Edge α × Nat)) (f : Facet α) : faceEdges (dd.map fun x => (mapE φ x.1, x.2)) (F f) = faceEdges dd f := by
  obtain ⟨-, h0, h1, h2⟩ := hF f
  unfold faceEdges
  simp only [h0, h1, h2, findEdge_map φ hφ]

def mapStl (s : STLFile α) : STLFile α := ⟨s.facets.map F, s.edges.map (mapE φ), s.faceEdge, s.unseen⟩

include hφ hF in
/-- The tables of a model whose vertices are moved in a way that keeps their order: the same table, moved. -/
theorem index_map (fs : List (Facet α)) : index (fs.map F) = (index fs).map (mapStl φ F) := by
  unfold index
  rw [addFacets_map φ hφ F hF]
  simp only [mapIdx, List.length_map]
  rw [partLoop_map φ F hF fs _ _ _ _ _ rfl]
  dsimp only
  rw [rebuildDD_map φ hφ]
  have hm : ∀ (dd : List (Edge α × Nat)) (l : List (Facet α)), (l.map F).mapM (faceEdges (dd.map fun x => (mapE φ x.1, x.2))) = l.mapM (faceEdges dd) := by
    intro dd l
    induction l with
    | nil => rfl
    | cons f l ih => rw [List.map_cons, List.mapM_cons, List.mapM_cons, faceEdges_map φ hφ F hF, ih]
  rw [hm]
  simp only [bind, Except.bind]
  cases fs.mapM (faceEdges (rebuildDD (partLoop fs (addFacets fs).edges (addFacets fs).edgeFace 0 (addFacets fs).edges.length).1)) <;> rfl

include hF in
theorem cullLoop_map : ∀ (n : Nat) (fs : List (Facet α)) (i j : Nat), j - i = n → cullLoop (fs.map F) i j = (cullLoop fs i j).map F
  | 0, fs, i, j, h => by
    rw [cullLoop.eq_1 (fs.map F) i j, cullLoop.eq_1 fs i j, if_neg (by omega), if_neg (by omega), List.map_take]
  | n + 1, fs, i, j, h => by
    rw [cullLoop.eq_1 (fs.map F) i j, cullLoop.eq_1 fs i j, if_pos (by omega), if_pos (by omega), List.getElem?_map]
    cases fs[i]? with
    | none => rfl
    | some f =>
      simp only [Option.map_some, (hF f).1]
      split_ifs
      · rw [swapAt_map]; exact cullLoop_map n _ _ _ (by omega)
      · exact cullLoop_map n _ _ _ (by omega)

include hF in
theorem cullFacets_map (fs : List (Facet α)) : cullFacets (fs.map F) = (cullFacets fs).map F := by
  unfold cullFacets
  rw [List.length_map, cullLoop_map φ F hF _ fs 0 _ rfl]

end

/-! ## Moving and resizing -/

section
variable {K : Type} [Field K] [LinearOrder K] [IsStrictOrderedRing K] [FloorRing K] [Trans K] (k : K) (t : V3 K)

/-- resizing and moving, for all values -/
def affX (x : Ext K) (c : K) : Ext K :=
  match x with
  | .fin a => .fin (a * k + c)
  | x => x
def aff (p : V3 (Ext K)) : V3 (Ext K) := ⟨affX k p.x t.x, affX k p.y t.y, affX k p.z t.z⟩

theorem aff_fin (p : V3 K) : aff k t p.fin = (p.resized k t).fin := by
  simp [aff, affX, V3.resized, V3.smul, V3.map]

variable {k} (hk : 0 < k)

include hk in
theorem affX_eq (x y : Ext K) (c : K) : FP.eq (affX k x c) (affX k y c) = FP.eq x y := by
  cases x <;> cases y <;> simp [affX, FP.eq, Ext.eq, hk.ne']

include hk in
theorem affX_lt (x y : Ext K) (c : K) : FP.lt (affX k x c) (affX k y c) = FP.lt x y := by
  cases x <;> cases y <;> simp [affX, FP.lt, Ext.lt, hk]

include hk in
theorem aff_order (a b : V3 (Ext K)) : order (aff k t a) (aff k t b) = order a b := by
  simp only [order, aff, affX_eq hk, affX_lt hk]

/-- the exact counterpart of a facet, moved -/
def Tri.resized (f : Tri K) : Tri K := ⟨f.n, f.a.resized k t, f.b.resized k t, f.c.resized k t, f.r * k + f.n.dot t⟩

/-- a facet, moved; the offset as given -/
def affF (f : Facet (Ext K)) : Facet (Ext K) :=
  ⟨f.norm, aff k t f.e0, aff k t f.e1, aff k t f.e2, f.r * Ext.fin k + f.norm.dot t.fin⟩

theorem affF_fin (f : Tri K) : affF (k := k) t f.fin = (f.resized (k := k) t).fin := by
  simp [affF, Tri.resized, aff_fin, V3.fin_dot]

def Edge.resized (e : Edge K) : Edge K := (e.1.resized k t, e.2.resized k t)

theorem mapE_fin (e : Edge K) : mapE (aff k t) e.fin = (Edge.resized (k := k) t e).fin := by
  simp [mapE, Edge.resized, aff_fin]

theorem edgeAt_resized (e : Edge K) (s : K) : edgeAt (Edge.resized (k := k) t e) s = (edgeAt e s).resized k t := by
  ext <;> simp [edgeAt, Edge.resized, V3.resized, V3.smul] <;> ring

include hk in
theorem resized_inj {p q : V3 K} (h : p.resized k t = q.resized k t) : p = q := by
  have hx := congrArg V3.x h; have hy := congrArg V3.y h; have hz := congrArg V3.z h
  simp only [V3.resized, V3.smul, V3.add_x, V3.add_y, V3.add_z, add_left_inj] at hx hy hz
  ext
  · exact mul_right_cancel₀ hk.ne' hx
  · exact mul_right_cancel₀ hk.ne' hy
  · exact mul_right_cancel₀ hk.ne' hz

include hk in
theorem resized_edge_inj {e g : Edge K} : Edge.resized (k := k) t e = Edge.resized (k := k) t g ↔ e = g := by
  constructor
  · intro h
    simp only [Edge.resized, Prod.mk.injEq] at h
    exact Prod.ext (resized_inj t hk h.1) (resized_inj t hk h.2)
  · rintro rfl; rfl

include hk in
theorem hasSide_resized (f : Tri K) (e : Edge K) : (f.resized (k := k) t).HasSide (Edge.resized (k := k) t e) ↔ f.HasSide e := by
  unfold Tri.HasSide
  rw [show ((f.resized (k := k) t).a, (f.resized (k := k) t).b) = Edge.resized (k := k) t (f.a, f.b) from rfl,
    show ((f.resized (k := k) t).b, (f.resized (k := k) t).c) = Edge.resized (k := k) t (f.b, f.c) from rfl,
    show ((f.resized (k := k) t).c, (f.resized (k := k) t).a) = Edge.resized (k := k) t (f.c, f.a) from rfl,
    show ((f.resized (k := k) t).b, (f.resized (k := k) t).a) = Edge.resized (k := k) t (f.b, f.a) from rfl,
    show ((f.resized (k := k) t).c, (f.resized (k := k) t).b) = Edge.resized (k := k) t (f.c, f.b) from rfl,
    show ((f.resized (k := k) t).a, (f.resized (k := k) t).c) = Edge.resized (k := k) t (f.a, f.c) from rfl]
  simp only [resized_edge_inj t hk]

include hk in
theorem pageParallel_resized (e g : Edge K) : PageParallel (Edge.resized (k := k) t e) (Edge.resized (k := k) t g) ↔ PageParallel e g := by
  unfold PageParallel
  simp only [Edge.resized, V3.resized, V3.smul, V3.add_x, V3.add_y]
  have h2 : k * k ≠ 0 := mul_ne_zero hk.ne' hk.ne'
  rw [← mul_left_inj' h2 (a := (e.2.x - e.1.x) * (g.2.y - g.1.y))]
  constructor <;> intro h <;> linear_combination h

include hk in
theorem crossedAt_resized (e g : Edge K) (p : V3 K) :
    CrossedAt (Edge.resized (k := k) t e) (Edge.resized (k := k) t g) (p.resized k t) ↔ CrossedAt e g p := by
  unfold CrossedAt
  simp only [edgeAt_resized]
  have hxy : ∀ p q : V3 K, (p.resized k t).xy = (q.resized k t).xy ↔ p.xy = q.xy := by
    intro p q
    simp only [V3.xy, V2.mk.injEq, V3.resized, V3.smul, V3.add_x, V3.add_y, add_left_inj, mul_left_inj' hk.ne']
  have hz : ∀ p q : V3 K, (p.resized k t).z ≤ (q.resized k t).z ↔ p.z ≤ q.z := by
    intro p q
    simp only [V3.resized, V3.smul, V3.add_z, add_le_add_iff_right, mul_le_mul_iff_left₀ hk]
  simp only [hxy, hz]
  constructor
  · rintro ⟨s, u, h1, h2, h3, h4, h5, h6⟩; exact ⟨s, u, h1, h2, h3, h4, resized_inj t hk h5, h6⟩
  · rintro ⟨s, u, h1, h2, h3, h4, h5, h6⟩; exact ⟨s, u, h1, h2, h3, h4, by rw [h5], h6⟩

include hk in
theorem side_resized (a b p : V3 K) :
    0 ≤ (b.x * k + t.x - (a.x * k + t.x)) * (p.y * k + t.y - (a.y * k + t.y)) - (b.y * k + t.y - (a.y * k + t.y)) * (p.x * k + t.x - (a.x * k + t.x)) ↔
    0 ≤ (b.x - a.x) * (p.y - a.y) - (b.y - a.y) * (p.x - a.x) := by
  rw [← mul_nonneg_iff_of_pos_left (mul_pos hk hk) (b := (b.x - a.x) * (p.y - a.y) - (b.y - a.y) * (p.x - a.x))]
  constructor <;> intro h <;> linarith

include hk in
theorem behind_resized (f : Tri K) (p : V3 K) : behind (f.resized (k := k) t).fin (p.resized k t).fin = behind f.fin p.fin := by
  unfold behind
  simp only [V3.fin_sub, V3.fin_dot, V3.fin_x, V3.fin_y, Ext.fin_mul, Ext.fin_sub, Ext.lit_eq, Ext.fin_le, Ext.fin_lt, Rat.cast_zero]
  congr 1
  · congr 1
    · congr 1
      · rw [decide_eq_decide]
        have : (p.resized k t).dot f.n - (f.r * k + f.n.dot t) = k * (p.dot f.n - f.r) := by
          simp [V3.dot, V3.resized, V3.smul]; ring
        show (p.resized k t).dot f.n < f.r * k + f.n.dot t ↔ p.dot f.n < f.r
        rw [← sub_neg, this, ← sub_neg (a := p.dot f.n)]
        constructor
        · intro h; exact neg_of_mul_neg_right h hk.le
        · intro h; exact mul_neg_of_pos_of_neg hk h
      · rw [decide_eq_decide]
        exact side_resized t hk f.a f.b p
    · rw [decide_eq_decide]
      exact side_resized t hk f.b f.c p
  · rw [decide_eq_decide]
    exact side_resized t hk f.c f.a p

include hk in
theorem meets_resized (e : Edge K) (f : Tri K) (s : K) : Meets (Edge.resized (k := k) t e) (f.resized (k := k) t) s ↔ Meets e f s := by
  unfold Meets
  simp only [edgeAt_resized]
  have h1 : behind (f.resized (k := k) t).fin (Edge.resized (k := k) t e).1.fin = behind f.fin e.1.fin := behind_resized t hk f e.1
  have h2 : behind (f.resized (k := k) t).fin (Edge.resized (k := k) t e).2.fin = behind f.fin e.2.fin := behind_resized t hk f e.2
  rw [h1, h2]
  refine and_congr_right fun _ => and_congr_right fun _ => or_congr_right (or_congr_right ?_)
  constructor
  · rintro ⟨g, hg, hp, hc⟩
    have : ∃ g', g = Edge.resized (k := k) t g' ∧ (g' = (f.a, f.b) ∨ g' = (f.b, f.c) ∨ g' = (f.c, f.a)) := by
      rcases hg with rfl | rfl | rfl
      · exact ⟨(f.a, f.b), rfl, by simp⟩
      · exact ⟨(f.b, f.c), rfl, by simp⟩
      · exact ⟨(f.c, f.a), rfl, by simp⟩
    obtain ⟨g', rfl, hg'⟩ := this
    exact ⟨g', hg', fun h => hp ((pageParallel_resized t hk e g').2 h), (crossedAt_resized t hk e g' _).1 hc⟩
  · rintro ⟨g, hg, hp, hc⟩
    refine ⟨Edge.resized (k := k) t g, ?_, fun h => hp ((pageParallel_resized t hk e g).1 h), (crossedAt_resized t hk e g _).2 hc⟩
    rcases hg with rfl | rfl | rfl
    · exact Or.inl rfl
    · exact Or.inr (Or.inl rfl)
    · exact Or.inr (Or.inr rfl)

include hk in
theorem covers_resized (e : Edge K) (f : Tri K) (s : K × K) : Covers (Edge.resized (k := k) t e) (f.resized (k := k) t) s ↔ Covers e f s := by
  have m := meets_resized t hk e f
  constructor
  · rintro ⟨h1, h2, h3, h4⟩
    exact ⟨(m _).1 h1, (m _).1 h2, h3, fun t ht => h4 t ((m t).2 ht)⟩
  · rintro ⟨h1, h2, h3, h4⟩
    exact ⟨(m _).2 h1, (m _).2 h2, h3, fun t ht => h4 t ((m t).1 ht)⟩

include hk in
theorem segsOf_resized (ts : List (Tri K)) (e : Edge K) : SegsOf (ts.map (Tri.resized (k := k) t)) (Edge.resized (k := k) t e) = SegsOf ts e := by
  funext segs
  unfold SegsOf
  have : ∀ s : K × K, (∃ f ∈ ts.map (Tri.resized (k := k) t), ¬ f.HasSide (Edge.resized (k := k) t e) ∧ Covers (Edge.resized (k := k) t e) f s) ↔
      ∃ f ∈ ts, ¬ f.HasSide e ∧ Covers e f s := by
    intro s
    simp only [List.mem_map, exists_exists_and_eq_and, hasSide_resized t hk, covers_resized t hk]
  simp only [this]

/-- a place on the page, resized and moved -/
def affL (l : Line (Ext K)) : Line (Ext K) := ⟨⟨affX k l.o.x t.x, affX k l.o.y t.y⟩, ⟨affX k l.t.x t.x, affX k l.t.y t.y⟩⟩

theorem segLines_resized (e : Edge K) (segs : List (K × K)) : segLines (Edge.resized (k := k) t e) segs = (segLines e segs).map (affL (k := k) t) := by
  unfold segLines
  rw [List.map_map]
  apply List.map_congr_left
  intro s _
  simp only [edgeAt_resized, Function.comp, affL, affX, V3.xy, V2.map, V3.resized, V3.smul, V3.add_x, V3.add_y]

theorem front_resized (f : Tri K) (hf : f.Front) (hk : 0 < k) : (f.resized (k := k) t).Front := by
  obtain ⟨h1, h2, h3, ⟨c, hc, h4⟩, h5⟩ := hf
  have dot : ∀ p : V3 K, f.n.dot (p.resized k t) = f.n.dot p * k + f.n.dot t := by intro p; simp [V3.dot, V3.resized, V3.smul]; ring
  refine ⟨?_, ?_, ?_, ⟨c * (k * k), by positivity, ?_⟩, h5⟩
  · show f.n.dot (f.a.resized k t) = f.r * k + f.n.dot t; rw [dot, h1]
  · show f.n.dot (f.b.resized k t) = f.r * k + f.n.dot t; rw [dot, h2]
  · show f.n.dot (f.c.resized k t) = f.r * k + f.n.dot t; rw [dot, h3]
  · have : ((f.resized (k := k) t).b - (f.resized (k := k) t).a).cross ((f.resized (k := k) t).c - (f.resized (k := k) t).a) =
        ((f.b - f.a).cross (f.c - f.a)).smul (k * k) := by
      ext <;> simp [Tri.resized, V3.cross, V3.resized, V3.smul] <;> ring
    rw [this, h4]
    ext <;> simp [Tri.resized, V3.smul] <;> ring

/-- the lines of a resized model are the resized lines -/
theorem toLines_resized (S : Sorter) (hS : SortOK S) (s : STLFile (Ext K)) (ts : List (Tri K)) (es : List (Edge K)) (hts : s.facets = ts.map Tri.fin)
    (hes : s.edges = es.map Edge.fin) (hfr : ∀ f ∈ ts, f.Front) (hw : WellIndexed s) (hk : 0 < k)
    (hw' : WellIndexed (mapStl (aff k t) (affF (k := k) t) s)) :
    ∃ ls, s.toLines S = .ok ls ∧ (mapStl (aff k t) (affF (k := k) t) s).toLines S = .ok (ls.map (affL (k := k) t)) := by
  refine ⟨_, toLines_eps S hS s ts es hts hes hfr hw, ?_⟩
  rw [toLines_eps S hS (mapStl (aff k t) (affF (k := k) t) s) (ts.map (Tri.resized (k := k) t)) (es.map (Edge.resized (k := k) t))
    (by simp only [mapStl, hts, List.map_map]; exact List.map_congr_left fun f _ => affF_fin t f)
    (by simp only [mapStl, hes, List.map_map]; exact List.map_congr_left fun e _ => mapE_fin t e)
    (by intro f hf; obtain ⟨g, hg, rfl⟩ := List.mem_map.1 hf; exact front_resized t g (hfr g hg) hk) hw']
  rw [List.map_flatten, ← List.map_take, List.map_map, List.map_map]
  congr 2
  apply List.map_congr_left
  intro e _
  simp only [Function.comp, segsOf_resized t hk, segLines_resized]
end
end S2P
